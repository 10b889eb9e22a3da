import Verif.Lemmas.GemsState
import Verif.Lemmas.GemsIv

/-!
# C123–C125: the thermodynamic functions of WaterHGK-JNgems.cpp

`dimHGK` computes, from a temperature (K), a pressure (MPa) and a density (g/cm³), the properties of water in cal/mol.  The statements below
say that they are the properties of one fluid: along a density v(T, P) that solves the equation of state of the code, the expansivity and
the compressibility are those of v, the heat capacity is the derivative of the enthalpy, and so on.
-/

namespace ThermoFun

namespace Gems

open WP (el)
open HGK (eli)

variable {T P : ℝ} {v : ℝ → ℝ → ℝ}

/-- The properties of water at T and P when the density is v(T, P). -/
noncomputable abbrev props (tt : Triple) (sat : ℕ) (v : ℝ → ℝ → ℝ) (T P : ℝ) : WProps :=
  dimHGK tt (thmHGK (evalAt T (v T P)) T (v T P)) sat T P (v T P)

lemma un_fh : un.fh = 4.305816 := rfl
lemma un_ft : un.ft = 1 := by simp only [un]; norm_num
lemma un_fp : un.fp = 10 := by simp only [un]; norm_num

/-! ### A state of water -/

/-- Water at 298.15 K and a density of 0.9971 g/cm³, under a few bar. -/
lemma ok_298 : Ok 298.15 0.9971 := by
  refine ok_of (tI := .rat 298.15) (dI := .rat 0.9971) (Enc.lit _ (by norm_num)) (Enc.lit _ (by norm_num)) (by decide +kernel)

/-- Water near its critical point: 641 K and 0.33 g/cm³. -/
lemma ok_641 : Ok 641 0.33 := by
  refine ok_of (tI := .rat 641) (dI := .rat 0.33) (Enc.lit _ (by norm_num)) (Enc.lit _ (by norm_num)) (by decide +kernel)

lemma dpdd_298 : (2217 : ℝ) < (thmHGK (evalAt 298.15 0.9971) 298.15 0.9971).dpdd := by
  have h := dpdd_enc (tI := .rat 298.15) (dI := .rat 0.9971) (Enc.lit (x := 298.15) _ (by norm_num)) (Enc.lit (x := 0.9971) _ (by norm_num))
  have := h.rat_lt 2217 (by decide +kernel)
  push_cast at this; exact this

lemma dpdd_641 : (3 : ℝ) < (thmHGK (evalAt 641 0.33) 641 0.33).dpdd := by
  have h := dpdd_enc (tI := .rat 641) (dI := .rat 0.33) (Enc.lit (x := 641) _ (by norm_num)) (Enc.lit (x := 0.33) _ (by norm_num))
  have := h.rat_lt 3 (by decide +kernel)
  push_cast at this; exact this

lemma den_298 : ∃ (v : ℝ → ℝ → ℝ) (P : ℝ), Den v 298.15 P ∧ v 298.15 P = 0.9971 := by
  obtain ⟨v, h1, h2⟩ := den_exists ok_298 (by have := dpdd_298; linarith)
  exact ⟨v, _, h1, h2⟩

lemma den_641 : ∃ (v : ℝ → ℝ → ℝ) (P : ℝ), Den v 641 P ∧ v 641 P = 0.33 := by
  obtain ⟨v, h1, h2⟩ := den_exists ok_641 (by have := dpdd_641; linarith)
  exact ⟨v, _, h1, h2⟩

/-! ### C123 -/

/-- C123.  Along a density that solves the equation of state of the code (P in MPa, ρ in g/cm³, energies in cal/mol, β in 1/bar, speed of
sound in cm/s): α = −(∂ρ/∂T)/ρ, 10·β = (∂ρ/∂P)/ρ, (∂H/∂T) at constant pressure is Cp, (∂H/∂P) at constant temperature is M(1 − αT)/ρ with
M = 4.305816 the factor of the energies, Cp − Cv = M·T·α²/(ρ·10β), the speed of sound is that of Cp, Cv, ρ and β, and α/β is the derivative of the
pressure (in bar) by temperature at constant density; U = H − M·P/ρ up to a constant. -/
theorem C123_consistent (tt : Triple) (sat : ℕ) (h : Den v T P) :
    HasDerivAt (fun T => v T P) (-(props tt sat v T P).alpha * v T P) T ∧
    HasDerivAt (fun P => v T P) (10 * (props tt sat v T P).beta * v T P) P ∧
    HasDerivAt (fun T => (props tt sat v T P).H) (props tt sat v T P).Cp T ∧
    HasDerivAt (fun P => (props tt sat v T P).H) (4.305816 * (1 - (props tt sat v T P).alpha * T) / v T P) P ∧
    (props tt sat v T P).Cp - (props tt sat v T P).Cv =
      4.305816 * T * (props tt sat v T P).alpha ^ 2 / (v T P * (10 * (props tt sat v T P).beta)) ∧
    (props tt sat v T P).speed = 100 * Real.sqrt |1000 * (props tt sat v T P).Cp / (props tt sat v T P).Cv / (v T P * (10 * (props tt sat v T P).beta))| ∧
    HasDerivAt (fun x => 10 * presOf (evalAt x (v T P)) x (v T P)) (props tt sat v T P).albe T ∧
    (props tt sat v T P).U = (props tt sat v T P).H - 4.305816 * P / v T P + (tt.Utr - tt.Htr) := by
  have hd := h.ok.hd.ne'
  have hk := h.hk
  have hg := gascon_pos.ne'
  have eH : ∀ T P, (props tt sat v T P).H = 4.305816 * (gascon * T * (thmHGK (evalAt T (v T P)) T (v T P)).hd) + tt.Htr := by
    intro T P; simp only [props, dimHGK, triple, un_fh, un_ft]; ring
  have eU : ∀ T P, (props tt sat v T P).U = 4.305816 * (gascon * T * (thmHGK (evalAt T (v T P)) T (v T P)).ud) + tt.Utr := by
    intro T P; simp only [props, dimHGK, triple, un_fh, un_ft]; ring
  have ea : (props tt sat v T P).alpha = v T P * (thmHGK (evalAt T (v T P)) T (v T P)).dvdt := rfl
  have eb : 10 * (props tt sat v T P).beta = 1 / (v T P * (thmHGK (evalAt T (v T P)) T (v T P)).dpdd) := by
    simp only [props, dimHGK, triple, un_fp]; field_simp
  have ecp : (props tt sat v T P).Cp = 4.305816 * (gascon * (thmHGK (evalAt T (v T P)) T (v T P)).cpd) := by
    simp only [props, dimHGK, triple, un_fh, un_ft]; ring
  have ecv : (props tt sat v T P).Cv = 4.305816 * (gascon * (thmHGK (evalAt T (v T P)) T (v T P)).cvd) := by
    simp only [props, dimHGK, triple, un_fh, un_ft]; ring
  have gH : Grad (fun T P => (props tt sat v T P).H) _ _ T P :=
    ((h.h_grad.const_mul 4.305816).add (Grad.const tt.Htr)).congr_fun eH
  have ecd : gascon * (thmHGK (evalAt T (v T P)) T (v T P)).cpd = gascon * (thmHGK (evalAt T (v T P)) T (v T P)).cvd +
      T * (thmHGK (evalAt T (v T P)) T (v T P)).dvdt ^ 2 * v T P ^ 2 * (thmHGK (evalAt T (v T P)) T (v T P)).dpdd := by
    have e : (thmHGK (evalAt T (v T P)) T (v T P)).cpd = (thmHGK (evalAt T (v T P)) T (v T P)).cvd + T * (thmHGK (evalAt T (v T P)) T (v T P)).dpdt *
      (thmHGK (evalAt T (v T P)) T (v T P)).dpdt / (v T P * v T P * (thmHGK (evalAt T (v T P)) T (v T P)).dpdd * gascon) := rfl
    rw [e, dpdt_eq h.ok, h.fTD_eq]; field_simp
  refine ⟨?_, ?_, ?_, ?_, ?_, ?_, ?_, ?_⟩
  · rw [ea]; exact h.gradT.dx
  · rw [eb]; exact h.gradT.dy.congr_deriv (by field_simp)
  · exact gH.dx.congr_deriv (by rw [ecp]; ring)
  · exact gH.dy.congr_deriv (by rw [ea]; ring)
  · rw [ecp, ecv, eb, ea, ecd]; field_simp; ring
  · have e : (props tt sat v T P).speed = Real.sqrt |(thmHGK (evalAt T (v T P)) T (v T P)).cpd * (thmHGK (evalAt T (v T P)) T (v T P)).dpdd * 1.0e3 /
        (thmHGK (evalAt T (v T P)) T (v T P)).cvd| * un.fs := rfl
    have e100 : un.fs = 100 := by simp only [un]; norm_num
    rw [e, e100, mul_comm, ecp, ecv, eb]
    congr 3
    rcases eq_or_ne (thmHGK (evalAt T (v T P)) T (v T P)).cvd 0 with h0 | h0
    · rw [h0]; simp
    · field_simp; norm_num
  · have g := (pres_grad h.ok).dx.const_mul 10
    refine g.congr_deriv ?_
    have e : (props tt sat v T P).albe = (props tt sat v T P).alpha / (props tt sat v T P).beta := rfl
    have eb2 : (props tt sat v T P).beta = 1 / (v T P * (thmHGK (evalAt T (v T P)) T (v T P)).dpdd) / 10 := by rw [← eb]; ring
    rw [e, ea, eb2, h.fTD_eq]; field_simp
  · rw [eU, eH, h.hd_eq.self_of_nhds]; ring

/-- The statement is about a state of water at 298.15 K, with α between 2.5·10⁻⁴ and 2.7·10⁻⁴ 1/K. -/
example : ∃ (v : ℝ → ℝ → ℝ) (P : ℝ), Den v 298.15 P ∧ v 298.15 P = 0.9971 ∧ 0.00025 < (props tripleHKF 0 v 298.15 P).alpha ∧
    (props tripleHKF 0 v 298.15 P).alpha < 0.00027 := by
  obtain ⟨v, P, h, hv⟩ := den_298
  have e : (props tripleHKF 0 v 298.15 P).alpha = v 298.15 P * (thmHGK (evalAt 298.15 (v 298.15 P)) 298.15 (v 298.15 P)).dvdt := rfl
  have ha := alpha_enc (tI := .rat 298.15) (dI := .rat 0.9971) (Enc.lit (x := 298.15) _ (by norm_num)) (Enc.lit (x := 0.9971) _ (by norm_num))
  have h1 := ha.rat_lt 0.00025 (by decide +kernel)
  have h2 := ha.lt_rat 0.00027 (by decide +kernel)
  push_cast at h1 h2
  refine ⟨v, P, h, hv, ?_, ?_⟩
  · rw [e, hv]; norm_num at h1 ⊢; linarith
  · rw [e, hv]; norm_num at h2 ⊢; linarith

/-! ### C124 -/

/-- The constant of the base function, 28.16666667, less its value (α + β + 1)/2 in the equation of state. -/
noncomputable def dHS : ℝ := 28.16666667 - (g1 + g2 + 1) / 2

lemma dHS_pos : 0 < dHS ∧ dHS < 1 / 100000000 := by
  unfold dHS g1 g2; constructor <;> norm_num

/-- C124, proved part.  The entropy and the Gibbs energy are those of the same fluid once the error of the constant 28.16666667 is removed: with
ε = M·R·δ/(1 − bρ/4)², 0 < δ < 10⁻⁸, the corrected entropy S + ε and Gibbs energy G − T·ε satisfy ∂S/∂T = Cp/T, ∂S/∂P = −M·α/ρ, ∂G/∂T = −S,
∂G/∂P = M/ρ; G = H − TS and A = U − TS up to constants hold as they are.  Missing from the property: that the entropy and the
Gibbs energy of the code themselves satisfy these, which is refuted below. -/
theorem C124_partial (tt : Triple) (sat : ℕ) (h : Den v T P) :
    let eps := fun T P => 4.305816 * gascon * dHS / (1 - (bb T).b1 * v T P / 4) ^ 2
    HasDerivAt (fun T => (props tt sat v T P).S + eps T P) ((props tt sat v T P).Cp / T) T ∧
    HasDerivAt (fun P => (props tt sat v T P).S + eps T P) (-4.305816 * (props tt sat v T P).alpha / v T P) P ∧
    HasDerivAt (fun T => (props tt sat v T P).G - T * eps T P) (-((props tt sat v T P).S + eps T P)) T ∧
    HasDerivAt (fun P => (props tt sat v T P).G - T * eps T P) (4.305816 / v T P) P ∧
    (props tt sat v T P).G = (props tt sat v T P).H - T * (props tt sat v T P).S + (273.16 * tt.Str + tt.Gtr - tt.Htr) ∧
    (props tt sat v T P).A = (props tt sat v T P).U - T * (props tt sat v T P).S + (273.16 * tt.Str + tt.Atr - tt.Utr) := by
  intro eps
  have hd := h.ok.hd.ne'
  have ht := h.ok.ht.ne'
  have eS : ∀ T P, (props tt sat v T P).S + eps T P = 4.305816 * (gascon * (thmHGK (evalAt T (v T P)) T (v T P)).sd +
      gascon * ((28.16666667 - cHS) / (1 - 0.25 * ((bb T).b1 * v T P)) ^ 2)) + tt.Str := by
    intro T P
    have e2 : (1 - (bb T).b1 * v T P / 4) = 1 - 0.25 * ((bb T).b1 * v T P) := by ring
    simp only [eps, e2, props, dimHGK, triple, un_fh, un_ft, dHS, cHS]; ring
  have eG : ∀ T P, (props tt sat v T P).G = (props tt sat v T P).H - T * (props tt sat v T P).S + (273.16 * tt.Str + tt.Gtr - tt.Htr) := by
    intro T P; simp only [props, dimHGK, triple, un_fh, un_ft]; ring
  have ecp : (props tt sat v T P).Cp = 4.305816 * (gascon * (thmHGK (evalAt T (v T P)) T (v T P)).cpd) := by
    simp only [props, dimHGK, triple, un_fh, un_ft]; ring
  have ea : (props tt sat v T P).alpha = v T P * (thmHGK (evalAt T (v T P)) T (v T P)).dvdt := rfl
  obtain ⟨_, _, h3, h4, _⟩ := C123_consistent tt sat h
  have s := ((h.s_grad.const_mul 4.305816).add (Grad.const tt.Str)).congr_fun eS
  have sT := s.dx
  have sP := s.dy
  have dT : HasDerivAt (fun T => (props tt sat v T P).S + eps T P) ((props tt sat v T P).Cp / T) T := sT.congr_deriv (by rw [ecp]; ring)
  have dP : HasDerivAt (fun P => (props tt sat v T P).S + eps T P) (-4.305816 * (props tt sat v T P).alpha / v T P) P := sP.congr_deriv (by rw [ea]; ring)
  refine ⟨dT, dP, ?_, ?_, eG T P, ?_⟩
  · have g := (h3.sub ((hasDerivAt_id' T).mul dT)).add_const (273.16 * tt.Str + tt.Gtr - tt.Htr)
    refine (g.congr_deriv (by field_simp; ring)).congr_of_eventuallyEq (Filter.Eventually.of_forall fun T' => ?_)
    simp only [eG, Pi.add_apply, Pi.sub_apply, Pi.mul_apply]; ring
  · have g := (h4.sub (dP.const_mul T)).add_const (273.16 * tt.Str + tt.Gtr - tt.Htr)
    refine (g.congr_deriv (by field_simp; ring)).congr_of_eventuallyEq (Filter.Eventually.of_forall fun P' => ?_)
    simp only [eG, Pi.add_apply, Pi.sub_apply, Pi.mul_apply]; ring
  · simp only [props, dimHGK, triple, un_fh, un_ft]; ring

/-- At every state the derivative of the Gibbs energy by pressure is not the volume. -/
lemma G_not_volume (tt : Triple) (sat : ℕ) (h : Den v T P) : ¬ HasDerivAt (fun P => (props tt sat v T P).G) (4.305816 / v T P) P := by
  intro hG
  obtain ⟨_, _, _, h4, _⟩ := C124_partial tt sat h
  have e := (h.err_grad.dy.const_mul (T * 4.305816 * gascon))
  have h5 := hG.sub h4
  have h6 := h5.unique (e.congr_of_eventuallyEq (Filter.Eventually.of_forall fun P' => by
    have e2 : (1 - (bb T).b1 * v T P' / 4) = 1 - 0.25 * ((bb T).b1 * v T P') := by ring
    simp only [Pi.sub_apply, e2, dHS, cHS]; ring))
  have hx : (1 - 0.25 * ((bb T).b1 * v T P)) ≠ 0 := by have := h.ok.hy; intro h0; linarith
  rw [sub_self] at h6
  have hc : 28.16666667 - cHS ≠ 0 := dHS_pos.1.ne'
  exact (mul_ne_zero (mul_ne_zero (mul_ne_zero h.ok.ht.ne' (by norm_num)) gascon_pos.ne')
    (div_ne_zero (div_ne_zero (mul_ne_zero (mul_ne_zero hc (by norm_num)) h.ok.hb) (pow_ne_zero 3 hx)) h.hk)) h6.symm

/-- C124, refuted.  At 298.15 K and 0.9971 g/cm³, ∂G/∂P at constant temperature is not M/ρ. -/
theorem C124_refuted : ∃ (v : ℝ → ℝ → ℝ) (P : ℝ), Den v 298.15 P ∧ v 298.15 P = 0.9971 ∧
    ¬ HasDerivAt (fun P => (props tripleHKF 0 v 298.15 P).G) (4.305816 / v 298.15 P) P := by
  obtain ⟨v, P, h, hv⟩ := den_298
  exact ⟨v, P, h, hv, G_not_volume _ _ h⟩

example : ∃ (v : ℝ → ℝ → ℝ) (P : ℝ), Den v 641 P ∧ v 641 P = 0.33 := den_641

/-! ### C125 -/

lemma dalErr_eq (t d : ℝ) : dalErr t d = xErr (el g 37) (el aad 1) (el aat 1) (el adz 1) (el atz 1) (eli ii 37) (eli jj 37) t d := by
  have e0 : ∀ G a b di ti k, xErr G a b di ti k 0 t d = 0 := by intro G a b di ti k; simp [xErr]
  have j0 : eli jj 36 = 0 := by decide
  have j2 : eli jj 38 = 0 := by decide
  have j3 : eli jj 39 = 0 := by decide
  unfold dalErr
  simp only [Finset.sum_range_succ, Finset.sum_range_zero, Nat.zero_add, j0, e0, show 1 + 36 = 37 from rfl, show 2 + 36 = 38 from rfl, show 3 + 36 = 39 from rfl, j2, j3, zero_add, add_zero]

lemma dalErr_off {t d : ℝ} (h : t ≤ 522 ∨ 758 ≤ t) : dalErr t d = 0 := by
  have h1 : el aat 1 = 20000 := by unfold el aat; norm_num
  have h2 : el atz 1 = 640 := by unfold el atz; norm_num
  have h3 : -el aat 1 * (t / el atz 1 - 1) * (t / el atz 1 - 1) ≤ EXPTOL := by
    rw [h1, h2]; unfold EXPTOL
    rcases h with h | h
    · nlinarith [mul_nonneg (sub_nonneg.2 h) (sub_nonneg.2 h)]
    · nlinarith [mul_nonneg (sub_nonneg.2 h) (sub_nonneg.2 h)]
  rw [dalErr_eq, xErr, keep]
  rw [if_pos h3]; ring

/-- C125, proved part.  Outside 522 K < T < 758 K, `dAldT` is the derivative of the expansivity by temperature along the isobar.
Missing from the property: the temperatures in between, where it is refuted. -/
theorem C125_partial (tt : Triple) (sat : ℕ) (h : Den v T P) (hT : T ≤ 522 ∨ 758 ≤ T) :
    HasDerivAt (fun T => (props tt sat v T P).alpha) (props tt sat v T P).dAldT T := by
  obtain ⟨c, n, c', n', hn, _, h1, h2⟩ := h.al_grad
  have e : (props tt sat v T P).dAldT = dalHGK T (v T P) (v T P * (thmHGK (evalAt T (v T P)) T (v T P)).dvdt) := rfl
  refine h1.congr_deriv ?_
  rw [e, h2, dalErr_off hT]
  simp only [mul_zero, add_zero, sub_zero]
  rw [div_div, sq]

example : ∃ (v : ℝ → ℝ → ℝ) (P : ℝ), Den v 298.15 P ∧ v 298.15 P = 0.9971 := den_298

lemma dalTrue_641 : let x := dalTrueI (.rat 641) (.rat 0.33) (alphaI (.rat 641) (.rat 0.33))
    (x.ok && decide ((Iv.rat 0.09).hi < x.lo)) = true ∧ (x.ok && decide (x.hi < (Iv.rat 0.1).lo)) = true := by decide +kernel

lemma dal_641 : let x := dalI (.rat 641) (.rat 0.33) (alphaI (.rat 641) (.rat 0.33))
    (x.ok && decide (x.hi < (Iv.rat (-3.7)).lo)) = true := by decide +kernel

/-- The expansivity at 641 K and 0.33 g/cm³: the derivative along the isobar, and `dAldT`. -/
lemma al_641 (tt : Triple) (sat : ℕ) (h : Den v 641 P) (hv : v 641 P = 0.33) :
    (∃ D, HasDerivAt (fun T => (props tt sat v T P).alpha) D 641 ∧ 0.09 < D ∧ D < 0.1) ∧ (props tt sat v 641 P).dAldT < -3.7 := by
  obtain ⟨c, n, c', n', hn, ⟨e1, e2, e3, e4⟩, h1, _⟩ := h.al_grad
  have ht := Enc.lit (x := 641) 641 (by norm_num)
  have hd := Enc.lit (x := 0.33) 0.33 (by norm_num)
  have ha := alpha_enc ht hd
  refine ⟨⟨_, h1, ?_⟩, ?_⟩
  · rw [e1, e3, e4]
    rw [hv] at e2 ⊢
    have hD := dalTrue_enc ht hd ha e2
    have l1 := hD.rat_lt 0.09 dalTrue_641.1
    have l2 := hD.lt_rat 0.1 dalTrue_641.2
    push_cast at l1 l2
    exact ⟨by norm_num at l1 ⊢; linarith, by norm_num at l2 ⊢; linarith⟩
  · have e : (props tt sat v 641 P).dAldT = dalHGK 641 (v 641 P) (v 641 P * (thmHGK (evalAt 641 (v 641 P)) 641 (v 641 P)).dvdt) := rfl
    rw [e, hv]
    have l := (dal_enc ht hd ha).lt_rat (-3.7) dal_641
    push_cast at l
    norm_num at l ⊢; linarith

/-- C125, refuted.  At 641 K and 0.33 g/cm³ the expansivity grows along the isobar, its derivative is between 0.09 and 0.1 1/K², and `dAldT` is below −3.7:
the second derivative by density of the 38th term is computed with `l/di/di` instead of `l/del/del` (WaterHGK-JNgems.cpp:2977-2978). -/
theorem C125_refuted : ∃ (v : ℝ → ℝ → ℝ) (P : ℝ), Den v 641 P ∧ v 641 P = 0.33 ∧
    (∃ D, HasDerivAt (fun T => (props tripleHKF 0 v T P).alpha) D 641 ∧ 0.09 < D ∧ D < 0.1) ∧ (props tripleHKF 0 v 641 P).dAldT < -3.7 := by
  obtain ⟨v, P, h, hv⟩ := den_641
  exact ⟨v, P, h, hv, al_641 _ _ h hv⟩

end Gems

end ThermoFun

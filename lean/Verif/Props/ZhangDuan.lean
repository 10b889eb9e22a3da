import Verif.Model.ZhangDuan
import Verif.Props.WaterFD
import Verif.Lemmas.GemsFlowIv
import Mathlib.Analysis.Calculus.MeanValue

/-!
Property C159: the Zhang-Duan model of water answers within its range and with a volume of its equation of state.
-/

set_option linter.unusedSimpArgs false

namespace ThermoFun

/-! ### Specification -/

/-- The pressure (bar) of the equation of state at the reduced volume `v`: Z R T over the molar volume. -/
noncomputable def zdPress (T v : ℝ) : ℝ := zdZ (T / 647.25) v * 83.14467 * T / (v * 55.9480373)

/-- The range the model is called with: 273.15 to 2273.15 K and 0.1 to 30 GPa. -/
def ZdRange (T P : ℝ) : Prop := (273.15 ≤ T ∧ T ≤ 2273.15) ∧ 1e8 ≤ P ∧ P ≤ 3e10

/-! ### The search -/

/-- A search that succeeds ends with a Newton step shorter than 1e-8, from a volume at which the slope is not zero. -/
lemma zdNewton_ok {T P : ℝ} : ∀ {n : ℕ} {v w : ℝ}, zdNewton T P n v = .ok w →
    ∃ u, u ≠ 0 ∧ zdDF T P u ≠ 0 ∧ w = u - zdF T P u / zdDF T P u ∧ |w - u| < 1e-8 := by
  intro n
  induction n with
  | zero => intro v w h; simp [zdNewton] at h
  | succ n ih =>
    intro v w h
    unfold zdNewton at h
    dsimp only at h
    split at h
    · simp at h
    · rename_i h0
      push Not at h0
      split at h
      · rename_i h1
        simp only [Res.ok.injEq] at h
        subst h
        exact ⟨v, h0.1, h0.2, rfl, by norm_num at h1 ⊢; exact h1⟩
      · exact ih h

lemma zdVolume_ok {T P V : ℝ} (h : zdVolume T P = .ok V) :
    (0 ≤ T ∧ T ≤ 2273.15) ∧ (1e8 ≤ P ∧ P ≤ 3e10) ∧ ∃ v, waterMolarVolume T (P / 1e05) 0.3 = .ok v ∧ V = v * 55.9480373 / 10 := by
  unfold zdVolume checkModelValidity at h
  split at h
  · simp [Res.bind] at h
  · rename_i h1
    split at h
    · simp [Res.bind] at h
    · rename_i h2
      split at h
      · simp [Res.bind] at h
      · rename_i h3
        push Not at h1 h2 h3
        cases hv : waterMolarVolume T (P / 1e05) 0.3 with
        | ok v => rw [hv] at h; simp only [Res.bind, Res.ok.injEq] at h; exact ⟨h1, ⟨h3, h2⟩, v, rfl, h.symm⟩
        | throw => rw [hv] at h; simp [Res.bind] at h
        | ub => rw [hv] at h; simp [Res.bind] at h

/-- The error of the pressure after a Newton step of length below 1e-8, when the slope changes by `ε` at most along the step. -/
lemma zd_press {T P u w ε : ℝ} (hP : P ≠ 0) (hw : w ≠ 0) (h0 : (0 : ℝ) ∉ Set.uIcc u w) (hd : zdDF T P u ≠ 0)
    (hn : w = u - zdF T P u / zdDF T P u) (hs : |w - u| < 1e-8) (hε : ∀ x ∈ Set.uIcc u w, |zdDF T P x - zdDF T P u| ≤ ε) :
    |zdPress T w - P| ≤ |P| * (ε * 1e-8) / (|w| * 55.9480373) := by
  have hm := Convex.norm_image_sub_le_of_norm_hasDerivWithin_le (f := fun x => zdF T P x - zdDF T P u * x)
    (f' := fun x => zdDF T P x - zdDF T P u) (C := ε) (s := Set.uIcc u w) (x := u) (y := w) (fun x hx => by
      have hx0 : x ≠ 0 := fun h => h0 (h ▸ hx)
      have := (C82_newton T P x hx0).sub ((hasDerivAt_id' x).const_mul (zdDF T P u))
      rw [mul_one] at this
      exact this.hasDerivWithinAt) (fun x hx => by rw [Real.norm_eq_abs]; exact hε x hx) (convex_uIcc u w) Set.left_mem_uIcc Set.right_mem_uIcc
  rw [Real.norm_eq_abs, Real.norm_eq_abs] at hm
  have e : zdF T P w - zdDF T P u * w - (zdF T P u - zdDF T P u * u) = zdF T P w := by
    have : zdDF T P u * (w - u) = -zdF T P u := by rw [hn]; field_simp; ring
    linarith
  rw [e] at hm
  have hε0 : 0 ≤ ε := (abs_nonneg _).trans (hε u Set.left_mem_uIcc)
  have hf : |zdF T P w| ≤ ε * 1e-8 := hm.trans (mul_le_mul_of_nonneg_left hs.le hε0)
  have hp : zdPress T w - P = P * zdF T P w / (w * 55.9480373) := by
    unfold zdPress zdF
    field_simp
  rw [hp, abs_div, abs_mul, abs_mul, abs_of_pos (show (0 : ℝ) < 55.9480373 by norm_num)]
  exact div_le_div_of_nonneg_right (mul_le_mul_of_nonneg_left hf (abs_nonneg _)) (by positivity)

/-- **C159.**  When the model answers, the pressure is within the range it is called with and the temperature below its upper end, and the
volume comes from a Newton step shorter than 1e-8: if the volumes of the step are positive and the slope changes along it by `ε` at most,
the equation of state gives the pressure asked for with an error proportional to `ε` times 1e-8.  Missing: that the volume is positive
(`C159_volume_refuted`) and that the temperature is above the lower end (`C159_range_refuted`). -/
theorem C159_partial (T P V : ℝ) (h : zdVolume T P = .ok V) :
    T ≤ 2273.15 ∧ 1e8 ≤ P ∧ P ≤ 3e10 ∧ ∃ u w : ℝ, V = w * 55.9480373 / 10 ∧ |w - u| < 1e-8 ∧
      ∀ ε, 0 < u → 0 < w → (∀ x ∈ Set.uIcc u w, |deriv (zdF T (P / 1e5)) x - deriv (zdF T (P / 1e5)) u| ≤ ε) →
        |zdPress T w * 1e5 - P| ≤ P * (ε * 1e-8) / (w * 55.9480373) := by
  obtain ⟨h1, h2, v, hv, hV⟩ := zdVolume_ok h
  obtain ⟨u, hu, hd, hw, hs⟩ := zdNewton_ok hv
  refine ⟨h1.2, h2.1, h2.2, u, v, hV, hs, fun ε u0 w0 hε => ?_⟩
  have n0 : (0 : ℝ) ∉ Set.uIcc u v := fun h => by
    rw [Set.mem_uIcc] at h
    rcases h with h | h <;> linarith [h.1, h.2]
  have hd' : ∀ x ∈ Set.uIcc u v, deriv (zdF T (P / 1e5)) x = zdDF T (P / 1e5) x := fun x hx =>
    (C82_newton T (P / 1e5) x (fun h => n0 (h ▸ hx))).deriv
  have hP : 0 < P := by linarith [h2.1, (by norm_num : (0 : ℝ) < 1e8)]
  have hP' : P / 1e5 ≠ 0 := by positivity
  have := zd_press hP' w0.ne' n0 hd hw hs (ε := ε) (fun x hx => by rw [← hd' x hx, ← hd' u Set.left_mem_uIcc]; exact hε x hx)
  rw [abs_of_pos w0, abs_of_pos (show (0 : ℝ) < P / 1e5 by positivity)] at this
  have e : zdPress T v * 1e5 - P = (zdPress T v - P / 1e5) * 1e5 := by ring_nf
  rw [e, abs_mul, abs_of_pos (show (0 : ℝ) < 1e5 by norm_num)]
  calc _ ≤ P / 1e5 * (ε * 1e-8) / (v * 55.9480373) * 1e5 := mul_le_mul_of_nonneg_right this (by norm_num)
    _ = _ := by field_simp

/-- Outside the range above and in pressure the model refuses. -/
theorem C159_refuses (T P : ℝ) (h : ¬ (T ≤ 2273.15 ∧ 1e8 ≤ P ∧ P ≤ 3e10)) : zdVolume T P = .throw ∧ zdDensity T P = .throw := by
  have : checkModelValidity T P 2273.15 273.15 3e10 1e8 = .throw := by
    unfold checkModelValidity
    split
    · rfl
    · split
      · rfl
      · split
        · rfl
        · rename_i h1 h2 h3
          push Not at h1 h2 h3
          exact absurd ⟨h1.2, h3, h2⟩ h
  unfold zdVolume zdDensity
  rw [this]
  exact ⟨rfl, rfl⟩

/-! ### The search on intervals -/

/-- The coefficients at a reduced temperature. -/
structure ZdI where
  B : Iv
  C : Iv
  D : Iv
  E : Iv
  F : Iv
  G : Iv

def zdCoefI (tr : Iv) : ZdI :=
  ⟨.rat 3.49824207e-01 + .rat (-2.91046273e+00) / tr ^ 2 + .rat 2.00914688e+00 / tr ^ 3,
   .rat 1.12819964e-01 + .rat 7.48997714e-01 / tr ^ 2 + .rat (-8.73207040e-01) / tr ^ 3,
   .rat 1.70609505e-02 + .rat (-1.46355822e-02) / tr ^ 2 + .rat 5.79768283e-02 / tr ^ 3,
   .rat (-8.41246372e-04) + .rat 4.95186474e-03 / tr ^ 2 + .rat (-9.16248538e-03) / tr ^ 3,
   .rat (-1.00358152e-01) / tr,
   .rat (-1.82674744e-03) * tr⟩

def zdFI (c : ZdI) (T P v : Iv) : Iv :=
  (.rat 1 + c.B / v + c.C / v ^ 2 + c.D / v ^ 4 + c.E / v ^ 5 + (c.F / v ^ 2 + c.G / v ^ 4) * Iv.exp (.rat (-1.05999998e-02) / v ^ 2)) *
    .rat 83.14467 * T / P - v * .rat 55.9480373

def zdDFI (c : ZdI) (T P v : Iv) : Iv :=
  (-c.B / v ^ 2 - .rat 2 * c.C / v ^ 3 - .rat 4 * c.D / v ^ 5 - .rat 5 * c.E / v ^ 6 -
    (.rat 2 * Iv.exp (-.rat 1.05999998e-02 / v ^ 2) * (-c.F * .rat 1.05999998e-02 * v ^ 2 + c.F * v ^ 4 - .rat 1.05999998e-02 * c.G +
      .rat 2 * c.G * v ^ 2)) / v ^ 7) * .rat 83.14467 * T / P - .rat 55.9480373

lemma lit' {x : ℝ} (q : ℚ) (h : x = (q : ℝ)) : Enc x (.rat q) := Enc.lit q h

variable {T P v : ℝ} {tI pI vI : Iv}

lemma zdF_enc (hT : Enc T tI) (hP : Enc P pI) (hv : Enc v vI) : Enc (zdF T P v) (zdFI (zdCoefI (tI / .rat 647.25)) tI pI vI) := by
  unfold zdF zdZ zdFI zdCoefI
  dsimp only
  repeat' first
    | with_reducible assumption | with_reducible apply Enc.add | with_reducible apply Enc.sub | with_reducible apply Enc.mul
    | with_reducible apply Enc.div | with_reducible apply Enc.exp | with_reducible apply Enc.pow
    | (with_reducible apply lit'; norm_num; done)

lemma zdDF_enc (hT : Enc T tI) (hP : Enc P pI) (hv : Enc v vI) : Enc (zdDF T P v) (zdDFI (zdCoefI (tI / .rat 647.25)) tI pI vI) := by
  unfold zdDF zdDFI zdCoefI
  dsimp only
  repeat' first
    | with_reducible assumption | with_reducible apply Enc.add | with_reducible apply Enc.sub | with_reducible apply Enc.mul
    | with_reducible apply Enc.div | with_reducible apply Enc.exp | with_reducible apply Enc.pow
    | (with_reducible apply lit'; norm_num; done) | with_reducible apply Enc.neg

/-- The loop on intervals: `none` when a comparison is not decided. -/
def zdNewtonI (c : ZdI) (T P : Iv) : ℕ → Iv → Option (Iv × Iv)
  | 0, _ => none
  | n + 1, v =>
    (zdDFI c T P v).force fun k =>
    (v - zdFI c T P v / k).force fun w =>
    if !((Iv.lt (.rat 0) v || v.lt (.rat 0)) && (Iv.lt (.rat 0) k || k.lt (.rat 0))) then none
    else if (w - v).lt (.rat 1e-8) && Iv.lt (.rat (-1e-8)) (w - v) then some (v, w)
    else if Iv.le (.rat 1e-8) (w - v) || (w - v).le (.rat (-1e-8)) then zdNewtonI c T P n w
    else none

lemma q0 : Enc (0 : ℝ) (.rat 0) := Enc.lit 0 (by norm_num)

lemma zdNewton_enc (hT : Enc T tI) (hP : Enc P pI) : ∀ (n : ℕ) (v : ℝ) (vI : Iv) (r : Iv × Iv), Enc v vI →
    zdNewtonI (zdCoefI (tI / .rat 647.25)) tI pI n vI = some r →
    ∃ u w, zdNewton T P n v = .ok w ∧ Enc u r.1 ∧ Enc w r.2 ∧ w = u - zdF T P u / zdDF T P u := by
  intro n
  induction n with
  | zero => intro v vI r _ h; simp [zdNewtonI] at h
  | succ n ih =>
    intro v vI r hv h
    have hk := zdDF_enc hT hP hv
    have hf := zdF_enc hT hP hv
    have p8 : Enc (1e-8 : ℝ) (.rat 1e-8) := Enc.lit _ (by norm_num)
    have m8 : Enc (-1e-8 : ℝ) (.rat (-1e-8)) := Enc.lit _ (by norm_num)
    unfold zdNewtonI at h
    unfold zdNewton
    simp only [Iv.force_eq] at h
    dsimp only at h ⊢
    generalize zdDFI (zdCoefI (tI / .rat 647.25)) tI pI vI = kI at *
    generalize zdFI (zdCoefI (tI / .rat 647.25)) tI pI vI = fI at *
    have hw : Enc (v - zdF T P v / zdDF T P v) (vI - fI / kI) := hv.sub (hf.div hk)
    have hwv := hw.sub hv
    have nz : ∀ {x : ℝ} {a : Iv}, Enc x a → (Iv.lt (.rat 0) a || a.lt (.rat 0)) = true → x ≠ 0 := by
      intro x a hx ha
      rw [Bool.or_eq_true] at ha
      rcases ha with ha | ha
      · exact (q0.lt' hx ha).ne'
      · exact (hx.lt' q0 ha).ne
    split at h
    · simp at h
    · rename_i h0
      simp only [Bool.not_eq_true', Bool.not_eq_false, Bool.and_eq_true] at h0
      rw [if_neg (not_or.2 ⟨nz hv h0.1, nz hk h0.2⟩)]
      split at h
      · rename_i h1
        rw [Bool.and_eq_true] at h1
        simp only [Option.some.injEq] at h
        subst h
        rw [if_pos]
        · exact ⟨v, _, rfl, hv, hw, rfl⟩
        · rw [abs_lt]
          have a1 := hwv.lt' p8 h1.1
          have a2 := m8.lt' hwv h1.2
          norm_num at a1 a2 ⊢
          exact ⟨a2, a1⟩
      · split at h
        · rename_i h1
          rw [if_neg]
          · exact ih _ _ _ hw h
          · rw [Bool.or_eq_true] at h1
            rw [abs_lt, not_and_or, not_lt, not_lt]
            rcases h1 with h1 | h1
            · right; have := p8.le hwv h1; norm_num at this ⊢; exact this
            · left; have := hwv.le m8 h1; norm_num at this ⊢; exact this
        · simp at h

/-- The interval that spans two others. -/
def Iv.hull (a b : Iv) : Iv := ⟨min a.lo b.lo, max a.hi b.hi, a.ok && b.ok⟩

lemma Enc.hull {x u w : ℝ} {a b : Iv} (ha : Enc u a) (hb : Enc w b) (hx : x ∈ Set.uIcc u w) : Enc x (a.hull b) := by
  intro h
  simp only [Iv.hull, Bool.and_eq_true] at h
  have h1 := ha h.1
  have h2 := hb h.2
  have hs := scl_pos
  rw [Set.mem_uIcc] at hx
  simp only [Iv.hull]
  push_cast
  rcases hx with hx | hx
  · exact ⟨(min_le_left _ _).trans (h1.1.trans (mul_le_mul_of_nonneg_right hx.1 hs.le)),
      (mul_le_mul_of_nonneg_right hx.2 hs.le).trans (h2.2.trans (le_max_right _ _))⟩
  · exact ⟨(min_le_right _ _).trans (h2.1.trans (mul_le_mul_of_nonneg_right hx.1 hs.le)),
      (mul_le_mul_of_nonneg_right hx.2 hs.le).trans (h1.2.trans (le_max_left _ _))⟩

lemma q3 : Enc (0.3 : ℝ) (.rat 0.3) := Enc.lit _ (by norm_num)

/-- What the search finds, from an evaluation on intervals. -/
lemma zd_at {T P : ℝ} (t p : ℚ) (hT : T = (t : ℝ)) (hP : P / 1e05 = (p : ℝ)) (r : Iv × Iv)
    (h : zdNewtonI (zdCoefI (.rat t / .rat 647.25)) (.rat t) (.rat p) 100 (.rat 0.3) = some r)
    (hc : 0 ≤ T ∧ T ≤ 2273.15 ∧ 1e8 ≤ P ∧ P ≤ 3e10) :
    ∃ u w, zdVolume T P = .ok (w * 55.9480373 / 10) ∧ zdDensity T P = .ok (18.015268 / (w * 55.9480373 / 10) * 100) ∧
      Enc u r.1 ∧ Enc w r.2 ∧ w = u - zdF T (P / 1e05) u / zdDF T (P / 1e05) u := by
  obtain ⟨u, w, h1, h2, h3, h4⟩ := zdNewton_enc (Enc.lit t hT) (Enc.lit p hP) 100 0.3 (.rat 0.3) r q3 h
  refine ⟨u, w, ?_, ?_, h2, h3, h4⟩
  all_goals
    simp only [zdVolume, zdDensity, waterMolarVolume, checkModelValidity]
    rw [if_neg (not_or.2 ⟨not_lt.2 hc.1, not_lt.2 hc.2.1⟩), if_neg (not_lt.2 hc.2.2.2), if_neg (not_lt.2 hc.2.2.1), h1]
    rfl

/-- A decided evaluation. -/
lemma some_of {o : Option (Iv × Iv)} {c : Iv × Iv → Bool} (h : (match o with | some r => c r | none => false) = true) :
    ∃ r, o = some r ∧ c r = true := by
  cases o with
  | none => simp at h
  | some r => exact ⟨r, rfl, h⟩

set_option maxRecDepth 4000 in
/-- **C159, violation.**  At 300 K and 2.156 GPa, within the range the model is called with, Newton's method jumps over the pole at volume
zero and converges to a negative root: the model answers with a volume of −2.76 J/bar (−27.6 cm³/mol) and a density of −652 kg/m³, without
an error. -/
theorem C159_volume_refuted : ZdRange 300 2.156e9 ∧ ∃ V D, zdVolume 300 2.156e9 = .ok V ∧ zdDensity 300 2.156e9 = .ok D ∧
    -2.77 < V ∧ V < -2.76 ∧ -653 < D ∧ D < -651 := by
  refine ⟨by unfold ZdRange; norm_num, ?_⟩
  obtain ⟨r, hr, hc⟩ := some_of (o := zdNewtonI (zdCoefI (.rat 300 / .rat 647.25)) (.rat 300) (.rat 21560) 100 (.rat 0.3))
    (c := fun r => r.2.lt (.rat (-0.4939)) && Iv.lt (.rat (-0.494)) r.2) (by decide +kernel)
  obtain ⟨u, w, h1, h2, -, h4, -⟩ := zd_at (T := 300) (P := 2.156e9) 300 21560 (by norm_num) (by norm_num) r hr (by norm_num)
  rw [Bool.and_eq_true] at hc
  have a1 := h4.lt' (Enc.lit (x := -0.4939) (-0.4939) (by norm_num)) hc.1
  have a2 := (Enc.lit (x := -0.494) (-0.494) (by norm_num)).lt' h4 hc.2
  refine ⟨_, _, h1, h2, by norm_num at a1 a2 ⊢; linarith, by norm_num at a1 a2 ⊢; linarith, ?_, ?_⟩
  · have hw : w * 55.9480373 / 10 < 0 := by nlinarith
    have hw0 : w ≠ 0 := by rintro rfl; norm_num at hw
    rw [← sub_pos, sub_neg_eq_add]
    have : 18.015268 / (w * 55.9480373 / 10) * 100 + 653 = (1801.5268 + 653 * (w * 55.9480373 / 10)) / (w * 55.9480373 / 10) := by
      field_simp; ring
    rw [this]
    exact div_pos_of_neg_of_neg (by norm_num at a1 a2 ⊢; linarith) hw
  · have hw : w * 55.9480373 / 10 < 0 := by nlinarith
    have hw0 : w ≠ 0 := by rintro rfl; norm_num at hw
    rw [← sub_neg, sub_neg_eq_add]
    have : 18.015268 / (w * 55.9480373 / 10) * 100 + 651 = (1801.5268 + 651 * (w * 55.9480373 / 10)) / (w * 55.9480373 / 10) := by
      field_simp; ring
    rw [this]
    exact div_neg_of_pos_of_neg (by norm_num at a1 a2 ⊢; linarith) hw

set_option maxRecDepth 4000 in
/-- **C159, violation.**  The lower limit of the temperature that is handed to the check is not looked at: no temperature from 0 to 273.15 K
is refused by it, and at 230 K and 0.1 GPa the model answers. -/
theorem C159_range_refuted : (∀ T P : ℝ, 0 ≤ T → T < 273.15 → 1e8 ≤ P → P ≤ 3e10 → checkModelValidity T P 2273.15 273.15 3e10 1e8 = .ok ()) ∧
    ¬ ZdRange 230 1e8 ∧ ∃ V, zdVolume 230 1e8 = .ok V := by
  refine ⟨fun T P h1 h2 h3 h4 => ?_, by unfold ZdRange; norm_num, ?_⟩
  · unfold checkModelValidity
    rw [if_neg (not_or.2 ⟨not_lt.2 h1, not_lt.2 (by norm_num at h2 ⊢; linarith)⟩), if_neg (not_lt.2 h4), if_neg (not_lt.2 h3)]
  · obtain ⟨r, hr, -⟩ := some_of (o := zdNewtonI (zdCoefI (.rat 230 / .rat 647.25)) (.rat 230) (.rat 1000) 100 (.rat 0.3))
      (c := fun r => Iv.lt (.rat 0) r.2) (by decide +kernel)
    obtain ⟨u, w, h1, -⟩ := zd_at (T := 230) (P := 1e8) 230 1000 (by norm_num) (by norm_num) r hr (by norm_num)
    exact ⟨_, h1⟩

set_option maxRecDepth 4000 in
/-- The hypotheses of `C159_partial` at 673.15 K and 0.5 GPa: the model answers, with positive volumes in the last step along which the
slope changes by less than 1e-3. -/
example : ZdRange 673.15 5e8 ∧ ∃ V u w, zdVolume 673.15 5e8 = .ok V ∧ 0 < u ∧ 0 < w ∧ V = w * 55.9480373 / 10 ∧
    ∀ x ∈ Set.uIcc u w, |deriv (zdF 673.15 (5e8 / 1e5)) x - deriv (zdF 673.15 (5e8 / 1e5)) u| ≤ 1e-3 := by
  refine ⟨by unfold ZdRange; norm_num, ?_⟩
  obtain ⟨r, hr, hc⟩ := some_of (o := zdNewtonI (zdCoefI (.rat 673.15 / .rat 647.25)) (.rat 673.15) (.rat 5000) 100 (.rat 0.3))
    (c := fun r => Iv.lt (.rat 0) r.1 && (Iv.lt (.rat 0) r.2 &&
      ((zdDFI (zdCoefI (.rat 673.15 / .rat 647.25)) (.rat 673.15) (.rat 5000) (r.1.hull r.2) -
        zdDFI (zdCoefI (.rat 673.15 / .rat 647.25)) (.rat 673.15) (.rat 5000) r.1).lt (.rat 1e-3) &&
      Iv.lt (.rat (-1e-3)) (zdDFI (zdCoefI (.rat 673.15 / .rat 647.25)) (.rat 673.15) (.rat 5000) (r.1.hull r.2) -
        zdDFI (zdCoefI (.rat 673.15 / .rat 647.25)) (.rat 673.15) (.rat 5000) r.1)))) (by decide +kernel)
  obtain ⟨u, w, h1, -, h3, h4, -⟩ := zd_at (T := 673.15) (P := 5e8) 673.15 5000 (by norm_num) (by norm_num) r hr (by norm_num)
  rw [Bool.and_eq_true, Bool.and_eq_true, Bool.and_eq_true] at hc
  have u0 := q0.lt' h3 hc.1
  have w0 := q0.lt' h4 hc.2.1
  refine ⟨_, u, w, h1, u0, w0, rfl, fun x hx => ?_⟩
  have x0 : 0 < x := by rw [Set.mem_uIcc] at hx; rcases hx with hx | hx <;> linarith [hx.1]
  have hT : Enc (673.15 : ℝ) (.rat 673.15) := Enc.lit _ (by norm_num)
  have hP : Enc (5e8 / 1e5 : ℝ) (.rat 5000) := Enc.lit _ (by norm_num)
  rw [(C82_newton _ _ x x0.ne').deriv, (C82_newton _ _ u u0.ne').deriv]
  have hd := (zdDF_enc hT hP (h3.hull h4 hx)).sub (zdDF_enc hT hP h3)
  have a1 := hd.lt' (Enc.lit (x := 1e-3) 1e-3 (by norm_num)) hc.2.2.1
  have a2 := (Enc.lit (x := -1e-3) (-1e-3) (by norm_num)).lt' hd hc.2.2.2
  exact abs_le.2 ⟨a2.le, a1.le⟩

end ThermoFun

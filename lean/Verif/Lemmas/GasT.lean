import Verif.Lemmas.GasDeriv

/-!
The temperature dependence of the parameters of the cubic equations of state.
-/

namespace ThermoFun.Gas

open Topology Filter

local notation "uPR" => (1 + Real.sqrt 2)
local notation "wPR" => (1 - Real.sqrt 2)

/-! ### General families of parameters -/

lemma pr_family {c T P Tc Pc b : ℝ} {p : ℝ → AB} (hT : 0 < T) (hP : 0 < P) (hb : 0 < b) (hpb : ∀ t, (p t).b = b) (hpa : ∀ t, 0 ≤ (p t).a)
    {a' : ℝ} (hda : HasDerivAt (fun t => (p t).a) a' T) (h : PrOne (p T).a b T P) :
    ∃ f : ℝ → Fug, (∀ᶠ t in 𝓝 T, 0 < t ∧ PrOne (p t).a b t P ∧ prPure c t P Tc Pc (p t) = some (f t) ∧
      f t = prProps c t P Tc Pc (p t) (Ax (p t).a t P) (Bx (p t).b t P)
        (prZ (p t).a b t P, prLnf (Ax (p t).a t P) (Bx b t P) (prZ (p t).a b t P))) ∧
      HasDerivAt (fun t => (f t).g) ((gres Rgas uPR wPR P T (p T).a b (prZ (p T).a b T P * Rgas * T / P)
        - hres Rgas uPR wPR P T (p T).a a' b (prZ (p T).a b T P * Rgas * T / P)) / T) T := by
  have hR := Rpos
  have ev : ∀ᶠ t in 𝓝 T, 0 < t ∧ PrOne (p t).a b t P :=
    (lt_mem_nhds hT).and (PrOne.eventually (a := fun t => (p t).a) (b := fun _ => b) (t := fun t => t) (p := fun _ => P)
      hda.continuousAt continuousAt_const continuousAt_id continuousAt_const hT.ne' h)
  refine ⟨fun t => prProps c t P Tc Pc (p t) (Ax (p t).a t P) (Bx (p t).b t P)
        (prZ (p t).a b t P, prLnf (Ax (p t).a t P) (Bx b t P) (prZ (p t).a b t P)), ev.mono fun t ht => ⟨ht.1, ht.2, ?_, rfl⟩, ?_⟩
  · have := prPure_one (c := c) (Tc := Tc) (Pc := Pc) (p := p t) ht.1 hP (hpa t) (by rw [hpb]; exact hb) (by rw [hpb]; exact ht.2)
    rw [this]; simp only [hpb]
  have r := pr_rootOf hT hP (hpa T) hb h
  have hv := (prV_diff (a := fun t => (p t).a) (b := fun _ => b) (t := fun t => t) (p := fun _ => P) (x := T)
    hda.differentiableAt (by fun_prop) (by fun_prop) (by fun_prop) hT.ne' hP.ne' h).hasDerivAt
  have d := (gres_over_T hR hT hP hb uw_ne hv hda r.vb r.vU r.vW r.eos).fun_mul (hasDerivAt_id' T)
  refine (d.congr_of_eventuallyEq (ev.mono fun t ht => ?_)).congr_deriv ?_
  · have := prProps_g (c := c) (Tc := Tc) (Pc := Pc) (z := prZ (p t).a b t P) (l := prLnf (Ax (p t).a t P) (Bx b t P) (prZ (p t).a b t P))
      (p := p t) ht.1 hP (by rw [hpb]; exact hb)
    rw [this, hpb]
    exact (div_mul_cancel₀ _ ht.1.ne').symm
  · field_simp
    ring

lemma srk_family {T P b : ℝ} {p : ℝ → AB} (hT : 0 < T) (hP : 0 < P) (hb : 0 < b) (hpb : ∀ t, (p t).b = b) (hpa : ∀ t, 0 ≤ (p t).a)
    {a' : ℝ} (hda : HasDerivAt (fun t => (p t).a) a' T) (h : SrkOne (p T).a b T P) :
    ∃ f : ℝ → Fug, (∀ᶠ t in 𝓝 T, 0 < t ∧ SrkOne (p t).a b t P ∧ srkPure t P (p t) = some (f t) ∧
      f t = srkProps t P (p t) (Bx (p t).b t P) (srkZ (p t).a b t P, srkLnf (Ax (p t).a t P) (Bx b t P) (srkZ (p t).a b t P))) ∧
      HasDerivAt (fun t => (f t).g) ((gres Rgas 1 0 P T (p T).a b (srkZ (p T).a b T P * Rgas * T / P)
        - hres Rgas 1 0 P T (p T).a a' b (srkZ (p T).a b T P * Rgas * T / P)) / T) T := by
  have hR := Rpos
  have ev : ∀ᶠ t in 𝓝 T, 0 < t ∧ SrkOne (p t).a b t P :=
    (lt_mem_nhds hT).and (SrkOne.eventually (a := fun t => (p t).a) (b := fun _ => b) (t := fun t => t) (p := fun _ => P)
      hda.continuousAt continuousAt_const continuousAt_id continuousAt_const hT.ne' h)
  refine ⟨fun t => srkProps t P (p t) (Bx (p t).b t P)
        (srkZ (p t).a b t P, srkLnf (Ax (p t).a t P) (Bx b t P) (srkZ (p t).a b t P)), ev.mono fun t ht => ⟨ht.1, ht.2, ?_, rfl⟩, ?_⟩
  · have := srkPure_one (p := p t) ht.1 hP (hpa t) (by rw [hpb]; exact hb) (by rw [hpb]; exact ht.2)
    rw [this]; simp only [hpb]
  have r := srk_rootOf hT hP (hpa T) hb h
  have hv := (srkV_diff (a := fun t => (p t).a) (b := fun _ => b) (t := fun t => t) (p := fun _ => P) (x := T)
    hda.differentiableAt (by fun_prop) (by fun_prop) (by fun_prop) hT.ne' hP.ne' h).hasDerivAt
  have d := (gres_over_T (u := 1) (w := 0) hR hT hP hb (by norm_num) hv hda r.vb r.vU r.vW r.eos).fun_mul (hasDerivAt_id' T)
  refine (d.congr_of_eventuallyEq (ev.mono fun t ht => ?_)).congr_deriv ?_
  · have r' := srk_rootOf ht.1 hP (hpa t) hb ht.2
    have := srkProps_g (z := srkZ (p t).a b t P) (l := srkLnf (Ax (p t).a t P) (Bx b t P) (srkZ (p t).a b t P))
      (p := p t) ht.1 hP (by rw [hpb]; exact hb) (by rw [hpb]; exact r')
    rw [this, hpb]
    exact (div_mul_cancel₀ _ ht.1.ne').symm
  · field_simp
    ring

/-- The derivative of the residual enthalpy along the isobar. -/
lemma pr_hres_T {T P b : ℝ} {A A' : ℝ → ℝ} {a'' : ℝ} (hT : 0 < T) (hP : 0 < P) (hb : 0 < b) (hpa : ∀ t, 0 ≤ A t)
    (hA : HasDerivAt A (A' T) T) (hA' : HasDerivAt A' a'' T) (h : PrOne (A T) b T P) :
    HasDerivAt (fun t => hres Rgas uPR wPR P t (A t) (A' t) b (prZ (A t) b t P * Rgas * t / P))
      (cres Rgas uPR wPR T (A T) (A' T) a'' b (prZ (A T) b T P * Rgas * T / P)) T := by
  have ev : ∀ᶠ t in 𝓝 T, 0 < t ∧ PrOne (A t) b t P :=
    (lt_mem_nhds hT).and (PrOne.eventually (a := A) (b := fun _ => b) (t := fun t => t) (p := fun _ => P)
      hA.continuousAt continuousAt_const continuousAt_id continuousAt_const hT.ne' h)
  have r := pr_rootOf hT hP (hpa T) hb h
  have hv := (prV_diff (a := A) (b := fun _ => b) (t := fun t => t) (p := fun _ => P) (x := T)
    hA.differentiableAt (by fun_prop) (by fun_prop) (by fun_prop) hT.ne' hP.ne' h).hasDerivAt
  exact hres_cres hb uw_ne hv hA hA' r.vb r.vU r.vW (ev.mono fun t ht => (pr_rootOf ht.1 hP (hpa t) hb ht.2).eos) r.slope

lemma srk_hres_T {T P b : ℝ} {A A' : ℝ → ℝ} {a'' : ℝ} (hT : 0 < T) (hP : 0 < P) (hb : 0 < b) (hpa : ∀ t, 0 ≤ A t)
    (hA : HasDerivAt A (A' T) T) (hA' : HasDerivAt A' a'' T) (h : SrkOne (A T) b T P) :
    HasDerivAt (fun t => hres Rgas 1 0 P t (A t) (A' t) b (srkZ (A t) b t P * Rgas * t / P))
      (cres Rgas 1 0 T (A T) (A' T) a'' b (srkZ (A T) b T P * Rgas * T / P)) T := by
  have ev : ∀ᶠ t in 𝓝 T, 0 < t ∧ SrkOne (A t) b t P :=
    (lt_mem_nhds hT).and (SrkOne.eventually (a := A) (b := fun _ => b) (t := fun t => t) (p := fun _ => P)
      hA.continuousAt continuousAt_const continuousAt_id continuousAt_const hT.ne' h)
  have r := srk_rootOf hT hP (hpa T) hb h
  have hv := (srkV_diff (a := A) (b := fun _ => b) (t := fun t => t) (p := fun _ => P) (x := T)
    hA.differentiableAt (by fun_prop) (by fun_prop) (by fun_prop) hT.ne' hP.ne' h).hasDerivAt
  exact hres_cres hb (by norm_num) hv hA hA' r.vb r.vU r.vW (ev.mono fun t ht => (srk_rootOf ht.1 hP (hpa t) hb ht.2).eos) r.slope

/-! ### The parameters as functions of temperature -/

lemma sqrt_deriv {T Tc : ℝ} (hT : 0 < T) (hTc : 0 < Tc) :
    HasDerivAt (fun t => Real.sqrt (t / Tc)) (1 / (2 * Real.sqrt (T / Tc) * Tc)) T := by
  have := ((hasDerivAt_id' T).div_const Tc).sqrt (by positivity)
  refine this.congr_deriv ?_
  have : 0 < Real.sqrt (T / Tc) := Real.sqrt_pos.mpr (by positivity)
  field_simp

lemma pow15 {x : ℝ} (hx : 0 < x) : x ^ (1.5 : ℝ) = Real.sqrt x ^ 3 := by
  rw [Real.sqrt_eq_rpow, ← Real.rpow_natCast, ← Real.rpow_mul hx.le]
  norm_num

/-- a = ac (1 + m (1 - √Tr))² and its derivatives. -/
lemma soave {T Tc m ac : ℝ} (hT : 0 < T) (hTc : 0 < Tc) :
    HasDerivAt (fun t => (1 + m * (1 - Real.sqrt (t / Tc))) ^ 2 * ac)
      (2 * ac * ((1 + m * (1 - Real.sqrt (T / Tc))) * (-0.5 * m / (Real.sqrt (T / Tc) * Tc)))) T ∧
    HasDerivAt (fun t => 2 * ac * ((1 + m * (1 - Real.sqrt (t / Tc))) * (-0.5 * m / (Real.sqrt (t / Tc) * Tc))))
      (2 * ac * ((-0.5 * m / (Real.sqrt (T / Tc) * Tc)) * (-0.5 * m / (Real.sqrt (T / Tc) * Tc))
        + (1 + m * (1 - Real.sqrt (T / Tc))) * (0.25 * m / ((T / Tc) ^ (1.5 : ℝ) * Tc ^ 2)))) T := by
  have hs : 0 < Real.sqrt (T / Tc) := Real.sqrt_pos.mpr (by positivity)
  have d0 := sqrt_deriv hT hTc
  have d1 : HasDerivAt (fun t => 1 + m * (1 - Real.sqrt (t / Tc))) (-0.5 * m / (Real.sqrt (T / Tc) * Tc)) T := by
    refine (((d0.const_sub 1).const_mul m).const_add 1).congr_deriv ?_
    field_simp; ring
  have d2 : HasDerivAt (fun t => -0.5 * m / (Real.sqrt (t / Tc) * Tc)) (0.25 * m / ((T / Tc) ^ (1.5 : ℝ) * Tc ^ 2)) T := by
    refine ((hasDerivAt_const T (-0.5 * m)).fun_div (d0.mul_const Tc) (by positivity)).congr_deriv ?_
    rw [pow15 (by positivity)]
    field_simp; ring
  constructor
  · refine ((d1.fun_pow 2).mul_const ac).congr_deriv ?_
    push_cast; ring
  · refine ((d1.fun_mul d2).const_mul (2 * ac)).congr_deriv ?_
    ring

lemma srk_da {T Tc Pc omg : ℝ} (hT : 0 < T) (hTc : 0 < Tc) :
    HasDerivAt (fun t => (srkAB t Tc Pc omg).a) (srkAB T Tc Pc omg).da T ∧ HasDerivAt (fun t => (srkAB t Tc Pc omg).da) (srkAB T Tc Pc omg).d2a T :=
  soave hT hTc

lemma pr78_da {T Tc Pc omg : ℝ} (hT : 0 < T) (hTc : 0 < Tc) :
    HasDerivAt (fun t => (pr78AB t Tc Pc omg).a) (pr78AB T Tc Pc omg).da T ∧
    HasDerivAt (fun t => (pr78AB t Tc Pc omg).da) (pr78AB T Tc Pc omg).d2a T :=
  soave hT hTc

/-- The factor in the residual enthalpy of the Peng-Robinson models. -/
lemma factor_ok {T Tc c Pc m : ℝ} {p : AB} (hT : 0 < T) (hTc : 0 < Tc) (hPc : 0 < Pc) (hc : 0 < c)
    (ha : p.a = (1 + m * (1 - Real.sqrt (T / Tc))) ^ 2 * (c * Rgas ^ 2 * Tc ^ 2 / Pc))
    (hda : p.da = 2 * (c * Rgas ^ 2 * Tc ^ 2 / Pc) * ((1 + m * (1 - Real.sqrt (T / Tc))) * (-0.5 * m / (Real.sqrt (T / Tc) * Tc))))
    (hpos : 0 < 1 + m * (1 - Real.sqrt (T / Tc))) (h1 : Real.sqrt (T / Tc) ≠ 1) :
    p.a * (1 + (Real.sqrt (p.a / (c * Rgas ^ 2 * Tc ^ 2 / Pc)) - 1) / (1 - Real.sqrt (T / Tc)) * Real.sqrt (T / Tc)
      / Real.sqrt (p.a / (c * Rgas ^ 2 * Tc ^ 2 / Pc))) = p.a - T * p.da := by
  have hR := Rpos
  have hs : 0 < Real.sqrt (T / Tc) := Real.sqrt_pos.mpr (by positivity)
  have hs2 : Real.sqrt (T / Tc) ^ 2 = T / Tc := Real.sq_sqrt (by positivity)
  rw [ha, hda]
  have hac : 0 < c * Rgas ^ 2 * Tc ^ 2 / Pc := by positivity
  clear ha hda
  generalize c * Rgas ^ 2 * Tc ^ 2 / Pc = ac at *
  rw [mul_div_cancel_right₀ _ hac.ne', Real.sqrt_sq hpos.le]
  generalize Real.sqrt (T / Tc) = s at *
  have hT' : T = s ^ 2 * Tc := by rw [hs2]; field_simp
  have h1' : 1 - s ≠ 0 := sub_ne_zero.mpr (Ne.symm h1)
  rw [show (1 + m * (1 - s) - 1) / (1 - s) = m by field_simp; ring, hT']
  have := hpos.ne'
  generalize 1 + m * (1 - s) = q at *
  field_simp
  ring

end ThermoFun.Gas

import Verif.Props.SubstanceP

/-!
Properties C35 and C36: the Murnaghan and Landau models of Holland and Powell.
-/

set_option linter.unusedSimpArgs false

namespace ThermoFun

/-! ### The analytic core: an integrated Murnaghan equation of state with a temperature dependent bulk modulus -/

section core
variable (V0 a0 k0 Tst p : ℝ)

/-- Volume at temperature `t` and zero pressure. -/
noncomputable def hpV (t : ℝ) : ℝ := V0 * (1 + a0 * (t - Tst) - 20 * a0 * (t ^ (0.5 : ℝ) - Tst ^ (0.5 : ℝ)))
/-- Bulk modulus at temperature `t`. -/
noncomputable def hpK (t : ℝ) : ℝ := k0 * (1 - 1.5e-4 * (t - Tst))
/-- 1 + 4 p / K. -/
noncomputable def hpq (t : ℝ) : ℝ := 1 + 4 * p / hpK k0 Tst t
/-- The integral of V dp. -/
noncomputable def hpG (t : ℝ) : ℝ := 1 / 3 * hpV V0 a0 Tst t * hpK k0 Tst t * (hpq k0 Tst p t ^ (0.75 : ℝ) - 1) * 1000
/-- The integral of (dV/dT) dp. -/
noncomputable def hpE (t : ℝ) : ℝ :=
  (V0 * hpK k0 Tst t / 3 * (a0 - 10 * a0 * t ^ (-0.5 : ℝ)) * (hpq k0 Tst p t ^ (0.75 : ℝ) - 1)
    - hpV V0 a0 Tst t * k0 / 3 * 1.5e-4 * (hpq k0 Tst p t ^ (0.75 : ℝ) - 1)
    + hpV V0 a0 Tst t * p * 1.5e-4 / (1 - 1.5e-4 * (t - Tst)) * hpq k0 Tst p t ^ (-0.25 : ℝ)) * 1000

variable {V0 a0 k0 Tst p}

lemma hpV_deriv {T : ℝ} (hT : 0 < T) :
    HasDerivAt (hpV V0 a0 Tst) (V0 * (a0 - 10 * a0 * T ^ (-0.5 : ℝ))) T := by
  have h : HasDerivAt (fun t : ℝ => t ^ (0.5 : ℝ)) (0.5 * T ^ (-0.5 : ℝ)) T := by
    refine (Real.hasDerivAt_rpow_const (Or.inl hT.ne')).congr_deriv ?_
    norm_num
  have h2 := (((((hasDerivAt_id' T).sub_const Tst).const_mul a0).const_add 1).sub
    ((h.sub_const (Tst ^ (0.5 : ℝ))).const_mul (20 * a0))).const_mul V0
  exact h2.congr_deriv (by ring)

lemma hpK_deriv {T : ℝ} : HasDerivAt (hpK k0 Tst) (-(1.5e-4 * k0)) T :=
  ((((((hasDerivAt_id' T).sub_const Tst).const_mul 1.5e-4).const_sub 1).const_mul k0)).congr_deriv (by ring)

lemma hpq_deriv {T : ℝ} (hk : k0 ≠ 0) (hc : 1 - 1.5e-4 * (T - Tst) ≠ 0) :
    HasDerivAt (hpq k0 Tst p) (4 * p * 1.5e-4 / (k0 * (1 - 1.5e-4 * (T - Tst)) ^ 2)) T := by
  have hK : hpK k0 Tst T ≠ 0 := mul_ne_zero hk hc
  have h := ((hasDerivAt_const T (4 * p)).div (hpK_deriv (k0 := k0) (Tst := Tst) (T := T)) hK).const_add 1
  refine h.congr_deriv ?_
  simp only [hpK]
  field_simp
  ring

lemma hpq_rpow_deriv {T : ℝ} (hk : k0 ≠ 0) (hc : 1 - 1.5e-4 * (T - Tst) ≠ 0) (hq : 0 < hpq k0 Tst p T) (e : ℝ) :
    HasDerivAt (fun t => hpq k0 Tst p t ^ e)
      (4 * p * 1.5e-4 / (k0 * (1 - 1.5e-4 * (T - Tst)) ^ 2) * e * hpq k0 Tst p T ^ (e - 1)) T :=
  (hpq_deriv hk hc).rpow_const (Or.inl hq.ne')

lemma hpG_deriv {T : ℝ} (hT : 0 < T) (hk : k0 ≠ 0) (hc : 1 - 1.5e-4 * (T - Tst) ≠ 0) (hq : 0 < hpq k0 Tst p T) :
    HasDerivAt (hpG V0 a0 k0 Tst p) (hpE V0 a0 k0 Tst p T) T := by
  have hx := hpq_rpow_deriv hk hc hq 0.75
  rw [show (0.75 - 1 : ℝ) = -0.25 by norm_num] at hx
  have h := ((((hpV_deriv (V0 := V0) (a0 := a0) (Tst := Tst) hT).const_mul (1 / 3)).mul (hpK_deriv (k0 := k0) (Tst := Tst))).mul
    (hx.sub_const 1)).mul_const 1000
  refine h.congr_deriv ?_
  simp only [hpE, hpK, Pi.mul_apply]
  generalize hpq k0 Tst p T ^ (0.75 : ℝ) = x
  generalize hpq k0 Tst p T ^ (-0.25 : ℝ) = y
  generalize hpV V0 a0 Tst T = v
  generalize T ^ (-0.5 : ℝ) = z
  generalize T - Tst = d at *
  field_simp
  ring

lemma hpE_deriv {T : ℝ} (hT : 0 < T) (hk : k0 ≠ 0) (hc : 1 - 1.5e-4 * (T - Tst) ≠ 0) (hq : 0 < hpq k0 Tst p T) :
    HasDerivAt (hpE V0 a0 k0 Tst p)
      ((5 / 3 * V0 * a0 * hpK k0 Tst T / T ^ (1.5 : ℝ) * (hpq k0 Tst p T ^ (0.75 : ℝ) - 1)
        - 2 / 3 * V0 * (a0 - 10 * a0 / T ^ (0.5 : ℝ)) * k0 * 1.5e-4 * (hpq k0 Tst p T ^ (0.75 : ℝ) - 1)
        + 2 * V0 * (a0 - 10 * a0 / T ^ (0.5 : ℝ)) * p * 1.5e-4 / (1 - 1.5e-4 * (T - Tst)) * hpq k0 Tst p T ^ (-0.25 : ℝ)
        - hpV V0 a0 Tst T * p ^ 2 * 1.5e-4 ^ 2 / ((1 - 1.5e-4 * (T - Tst)) ^ 3 * k0) * hpq k0 Tst p T ^ (-1.25 : ℝ)) * 1000) T := by
  have hx := hpq_rpow_deriv hk hc hq 0.75
  have hy := hpq_rpow_deriv hk hc hq (-0.25)
  rw [show (0.75 - 1 : ℝ) = -0.25 by norm_num] at hx
  rw [show (-0.25 - 1 : ℝ) = -1.25 by norm_num] at hy
  have hz : HasDerivAt (fun t : ℝ => t ^ (-0.5 : ℝ)) (-0.5 * T ^ (-1.5 : ℝ)) T := by
    refine (Real.hasDerivAt_rpow_const (Or.inl hT.ne')).congr_deriv ?_
    norm_num
  have hV := hpV_deriv (V0 := V0) (a0 := a0) (Tst := Tst) hT
  have hK := hpK_deriv (k0 := k0) (Tst := Tst) (T := T)
  have hc1 : HasDerivAt (fun t : ℝ => 1 - 1.5e-4 * (t - Tst)) (-1.5e-4) T :=
    ((((hasDerivAt_id' T).sub_const Tst).const_mul 1.5e-4).const_sub 1).congr_deriv (by ring)
  have h := (((((((hK.const_mul V0).div_const 3).mul ((hz.const_mul (10 * a0)).const_sub a0)).mul (hx.sub_const 1)).sub
    ((((hV.mul_const k0).div_const 3).mul_const 1.5e-4).mul (hx.sub_const 1))).add
    ((((hV.mul_const p).mul_const 1.5e-4).div hc1 hc).mul hy)).mul_const 1000)
  refine h.congr_deriv ?_
  simp only [hpK, Pi.mul_apply, Pi.div_apply]
  rw [show T ^ (-1.5 : ℝ) = 1 / T ^ (1.5 : ℝ) by rw [Real.rpow_neg hT.le, one_div],
    show T ^ (-0.5 : ℝ) = 1 / T ^ (0.5 : ℝ) by rw [Real.rpow_neg hT.le, one_div]]
  have h1 : (T ^ (1.5 : ℝ)) ≠ 0 := (Real.rpow_pos_of_pos hT _).ne'
  have h2 : (T ^ (0.5 : ℝ)) ≠ 0 := (Real.rpow_pos_of_pos hT _).ne'
  generalize hpq k0 Tst p T ^ (0.75 : ℝ) = x
  generalize hpq k0 Tst p T ^ (-0.25 : ℝ) = y
  generalize hpq k0 Tst p T ^ (-1.25 : ℝ) = w
  generalize hpV V0 a0 Tst T = v
  generalize T ^ (1.5 : ℝ) = z at *
  generalize T ^ (0.5 : ℝ) = u at *
  generalize T - Tst = d at *
  field_simp
  ring

end core

section core
variable {V0 a0 k0 Tst p : ℝ}

lemma hpG_deriv_p {T : ℝ} (hk : k0 ≠ 0) (hc : 1 - 1.5e-4 * (T - Tst) ≠ 0) (hq : 0 < hpq k0 Tst p T) :
    HasDerivAt (fun p => hpG V0 a0 k0 Tst p T) (hpV V0 a0 Tst T * hpq k0 Tst p T ^ (-0.25 : ℝ) * 1000) p := by
  have hK : hpK k0 Tst T ≠ 0 := mul_ne_zero hk hc
  have hd : HasDerivAt (fun p => hpq k0 Tst p T) (4 / hpK k0 Tst T) p :=
    ((((hasDerivAt_id' p).const_mul 4).div_const (hpK k0 Tst T)).const_add 1).congr_deriv (by ring)
  have hx : HasDerivAt (fun p => hpq k0 Tst p T ^ (0.75 : ℝ)) _ p := hd.rpow_const (Or.inl hq.ne')
  rw [show (0.75 - 1 : ℝ) = -0.25 by norm_num] at hx
  have h := ((hx.sub_const 1).const_mul (1 / 3 * hpV V0 a0 Tst T * hpK k0 Tst T)).mul_const 1000
  refine h.congr_deriv ?_
  generalize hpq k0 Tst p T ^ (-0.25 : ℝ) = y
  field_simp
  ring

lemma hpq_compl {T : ℝ} (hK : 0 < hpK k0 Tst T) (hq : 0 < hpq k0 Tst p T) :
    (1 - 4 * p / (hpK k0 Tst T + 4 * p)) ^ (0.25 : ℝ) = hpq k0 Tst p T ^ (-0.25 : ℝ) := by
  have e : 1 - 4 * p / (hpK k0 Tst T + 4 * p) = (hpq k0 Tst p T)⁻¹ := by
    have h2 : hpK k0 Tst T + 4 * p ≠ 0 := by
      have : hpK k0 Tst T + 4 * p = hpK k0 Tst T * hpq k0 Tst p T := by
        simp only [hpq]; field_simp
      rw [this]; positivity
    have h3 : 1 + 4 * p / hpK k0 Tst T ≠ 0 := hq.ne'
    simp only [hpq]
    field_simp
    ring
  rw [e, Real.inv_rpow hq.le, Real.rpow_neg hq.le]

end core

/-! ### C35 -/

/-- The parameters of a mineral that the Murnaghan model accepts: volume, expansivity and bulk modulus present. -/
structure MurnOk (ref : TPS) (k0 a : ℝ) : Prop where
  vol : |ref.V.val| > 1e-9
  exp : |a * 1e-5| > 1e-9
  bulk : k0 > 1e-9

/-- Pressure in kbar. -/
noncomputable def kbar (P : ℝ) : ℝ := P / 1e5 / 1000

lemma murnaghan_vals (T P Tst Pr : ℝ) (ref : TPS) (k0 a : ℝ) (tps : TPS) (h : MurnOk ref k0 a) (hne : P ≠ Pr ∨ T ≠ Tst) :
    let r := murnaghan (TS.temperature T) (pbar P) Tst Pr ref k0 a tps
    let a0 := a * 1e-5
    let V0 := ref.V.val
    let p := kbar P
    let q := hpq k0 Tst p T
    r.G.val = tps.G.val + hpG V0 a0 k0 Tst p T ∧
    r.S.val = tps.S.val - hpE V0 a0 k0 Tst p T ∧
    r.H.val = tps.H.val + (hpG V0 a0 k0 Tst p T - T * hpE V0 a0 k0 Tst p T) ∧
    r.V.val = tps.V.val + hpV V0 a0 Tst T * (1 - 4 * p / (hpK k0 Tst T + 4 * p)) ^ (0.25 : ℝ) ∧
    r.Cp.val = tps.Cp.val - T * ((5 / 3 * V0 * a0 * hpK k0 Tst T / T ^ (1.5 : ℝ) * (q ^ (0.75 : ℝ) - 1)
        - 2 / 3 * V0 * (a0 - 10 * a0 / T ^ (0.5 : ℝ)) * k0 * 1.5e-4 * (q ^ (0.75 : ℝ) - 1)
        + 2 * V0 * (a0 - 10 * a0 / T ^ (0.5 : ℝ)) * p * 1.5e-4 / (1 - 1.5e-4 * (T - Tst)) * q ^ (-0.25 : ℝ)
        - hpV V0 a0 Tst T * p ^ 2 * 1.5e-4 ^ 2 / ((1 - 1.5e-4 * (T - Tst)) ^ 3 * k0) * q ^ (-1.25 : ℝ)) * 1000) ∧
    r.U.val = r.H.val - P / 1e5 * r.V.val ∧ r.A.val = r.U.val - T * r.S.val := by
  intro r a0 V0 p q
  have hcond : ((pbar P - Pr / 1e5).val ≠ 0 ∨ (TS.temperature T - Tst).val ≠ 0) ∧ |ref.V.val| > 1e-9 ∧ |a * 1e-5| > 1e-9 ∧ |k0| > 1e-9 := by
    refine ⟨?_, h.vol, h.exp, lt_of_lt_of_le h.bulk (le_abs_self _)⟩
    rcases hne with h1 | h1
    · left
      simp only [TS.op_val_subR, val_pbar]
      rw [← sub_div]
      exact div_ne_zero (sub_ne_zero.2 h1) (by norm_num)
    · right
      simp only [TS.op_val_subR, TS.val_temperature]
      exact sub_ne_zero.2 h1
  simp only [r, murnaghan, if_pos hcond]
  simp only [TS.op_val_add, TS.op_val_addL, TS.op_val_addR, TS.op_val_neg, TS.op_val_sub, TS.op_val_subL, TS.op_val_subR,
      TS.op_val_mul, TS.op_val_mulL, TS.op_val_mulR, TS.op_val_div, TS.op_val_divL, TS.op_val_divR, TS.val_temperature, val_pbar,
      TS.val_addAssign, TS.val_powR, hpG, hpE, hpV, hpK, hpq, p, q, V0, a0, kbar, Real.rpow_ofNat, Real.rpow_two, and_true, true_and]
  refine ⟨?_, ?_, ?_⟩ <;> ring

lemma murnaghan_vals_missing (T P Tst Pr : ℝ) (ref : TPS) (k0 a : ℝ) (tps : TPS)
    (h : (P = Pr ∧ T = Tst) ∨ |ref.V.val| ≤ 1e-9 ∨ |a * 1e-5| ≤ 1e-9 ∨ |k0| ≤ 1e-9) :
    let r := murnaghan (TS.temperature T) (pbar P) Tst Pr ref k0 a tps
    r.V = ref.V ∧ r.G.val = tps.G.val + ref.V.val * (P - Pr) / 1e5 ∧ r.H.val = tps.H.val + ref.V.val * (P - Pr) / 1e5 ∧
      r.S = tps.S ∧ r.Cp = tps.Cp ∧ r.U.val = r.H.val - P / 1e5 * r.V.val ∧ r.A.val = r.U.val - T * r.S.val := by
  intro r
  have hcond : ¬ (((pbar P - Pr / 1e5).val ≠ 0 ∨ (TS.temperature T - Tst).val ≠ 0) ∧ |ref.V.val| > 1e-9 ∧ |a * 1e-5| > 1e-9 ∧ |k0| > 1e-9) := by
    rintro ⟨h0, h1, h2, h3⟩
    rcases h with ⟨rfl, rfl⟩ | h | h | h
    · simp at h0
    · linarith
    · linarith
    · linarith
  simp only [r, murnaghan, if_neg hcond]
  simp only [TS.val_addAssign, TS.op_val_mul, TS.op_val_subR, TS.op_val_sub, val_pbar, TS.val_temperature, true_and, and_true]
  refine ⟨?_, ?_⟩ <;> ring

/-- **C35, away from the reference point.**  With the model's three parameters, at every pressure and temperature of its domain except exactly
(Tr, Pr): the slope of the Gibbs energy increment in P is the volume increment, its slope in T is minus the entropy increment, the enthalpy
increment is dG + T dS, the slope of the entropy increment is dCp / T; U and A follow.  Missing: the reference point, see below. -/
theorem C35_consistent_partial (Tst Pr : ℝ) (ref tps : TPS) (k0 a : ℝ) (h : MurnOk ref k0 a) (T P : ℝ) (hT : 0 < T) (hP : 0 < P)
    (hc : 1.5e-4 * (T - Tst) < 1) (hne : P ≠ Pr ∨ T ≠ Tst) :
    let f := fun t p => murnaghan (TS.temperature t) (pbar p) Tst Pr ref k0 a tps
    HasDerivAt (fun p => (f T p).G.val) (((f T P).V.val - tps.V.val) / 1e5) P ∧
    HasDerivAt (fun t => (f t P).G.val) (-((f T P).S.val - tps.S.val)) T ∧
    (f T P).H.val - tps.H.val = ((f T P).G.val - tps.G.val) + T * ((f T P).S.val - tps.S.val) ∧
    HasDerivAt (fun t => (f t P).S.val) (((f T P).Cp.val - tps.Cp.val) / T) T ∧
    (f T P).U.val = (f T P).H.val - P / 1e5 * (f T P).V.val ∧ (f T P).A.val = (f T P).U.val - T * (f T P).S.val := by
  intro f
  have hv := fun t p (hn : p ≠ Pr ∨ t ≠ Tst) => murnaghan_vals t p Tst Pr ref k0 a tps h hn
  obtain ⟨v1, v2, v3, v4, v5, v6, v7⟩ := hv T P hne
  have hk : 0 < k0 := lt_trans (by norm_num) h.bulk
  have hc' : 0 < 1 - 1.5e-4 * (T - Tst) := by linarith
  have hK : 0 < hpK k0 Tst T := mul_pos hk hc'
  have hp : 0 < kbar P := by unfold kbar; positivity
  have hq : 0 < hpq k0 Tst (kbar P) T := by unfold hpq; positivity
  have hnT : ∀ᶠ t in nhds T, P ≠ Pr ∨ t ≠ Tst := by
    rcases hne with h | h
    · exact Filter.Eventually.of_forall fun _ => Or.inl h
    · filter_upwards [isOpen_ne.mem_nhds h] with t ht using Or.inr ht
  have hnP : ∀ᶠ p in nhds P, p ≠ Pr ∨ T ≠ Tst := by
    rcases hne with h | h
    · filter_upwards [isOpen_ne.mem_nhds h] with t ht using Or.inl ht
    · exact Filter.Eventually.of_forall fun _ => Or.inr h
  refine ⟨?_, ?_, ?_, ?_, v6, v7⟩
  · have hkb : HasDerivAt kbar (1 / 1e5 / 1000) P := ((hasDerivAt_id' P).div_const _).div_const _
    have hd := (((hpG_deriv_p (V0 := ref.V.val) (a0 := a * 1e-5) hk.ne' hc'.ne' hq).comp P hkb)).const_add tps.G.val
    refine (hd.congr_deriv ?_).congr_of_eventuallyEq ?_
    · simp only [f, v4]
      rw [hpq_compl hK hq]
      ring
    · filter_upwards [hnP] with p hn
      exact (hv T p hn).1
  · have hd := (hpG_deriv (V0 := ref.V.val) (a0 := a * 1e-5) hT hk.ne' hc'.ne' hq).const_add tps.G.val
    refine (hd.congr_deriv ?_).congr_of_eventuallyEq ?_
    · simp only [f, v2]; ring
    · filter_upwards [hnT] with t hn
      exact (hv t P hn).1
  · simp only [f, v1, v2, v3]; ring
  · have hd := (hpE_deriv (V0 := ref.V.val) (a0 := a * 1e-5) hT hk.ne' hc'.ne' hq).const_sub tps.S.val
    refine (hd.congr_deriv ?_).congr_of_eventuallyEq ?_
    · simp only [f, v5]
      field_simp
      ring
    · filter_upwards [hnT] with t hn
      exact (hv t P hn).2.1

/-- Periclase-like parameters: V° = 1.125 J/bar, a° = 6.2e-5 1/K, K = 1650 kbar, at 1000 K and 1 kbar. -/
example : ∃ (ref : TPS) (k0 a Tst Pr T P : ℝ), MurnOk ref k0 a ∧ 0 < T ∧ 0 < P ∧ 1.5e-4 * (T - Tst) < 1 ∧ (P ≠ Pr ∨ T ≠ Tst) :=
  ⟨{ TPS.default with V := TS.mk5 1.125 0 0 0 .read }, 1650, 6.2, 298.15, 1e5, 1000, 1e8,
    ⟨by norm_num [abs_of_pos], by norm_num [abs_of_pos], by norm_num⟩, by norm_num, by norm_num, by norm_num, Or.inl (by norm_num)⟩

/-- **C35, minerals without the parameters.**  When the volume, the expansivity or the bulk modulus is missing the volume is taken as constant,
and dG/dP = V, dG/dT, S and Cp are untouched, dH = dG. -/
theorem C35_missing_parameters (Tst Pr : ℝ) (ref tps : TPS) (k0 a : ℝ)
    (h : |ref.V.val| ≤ 1e-9 ∨ |a * 1e-5| ≤ 1e-9 ∨ |k0| ≤ 1e-9) (T P : ℝ) :
    let f := fun t p => murnaghan (TS.temperature t) (pbar p) Tst Pr ref k0 a tps
    HasDerivAt (fun p => (f T p).G.val) ((f T P).V.val / 1e5) P ∧
    HasDerivAt (fun t => (f t P).G.val) 0 T ∧ (f T P).S = tps.S ∧ (f T P).Cp = tps.Cp ∧
    (f T P).H.val - tps.H.val = (f T P).G.val - tps.G.val ∧
    (f T P).U.val = (f T P).H.val - P / 1e5 * (f T P).V.val ∧ (f T P).A.val = (f T P).U.val - T * (f T P).S.val := by
  intro f
  have hv := fun t p => murnaghan_vals_missing t p Tst Pr ref k0 a tps (Or.inr h)
  have hG : ∀ t p, (f t p).G.val = tps.G.val + ref.V.val * (p - Pr) / 1e5 := fun t p => (hv t p).2.1
  obtain ⟨v1, v2, v3, v4, v5, v6, v7⟩ := hv T P
  refine ⟨?_, ?_, v4, v5, ?_, v6, v7⟩
  · simp only [hG]
    refine (((((hasDerivAt_id' P).sub_const Pr).const_mul _).div_const _).const_add _).congr_deriv ?_
    simp only [f, v1]; ring
  · simp only [hG]
    exact hasDerivAt_const _ _
  · simp only [f, v2, v3]; ring

/-- A mineral with a volume but no expansivity. -/
example : ∃ (ref : TPS) (a : ℝ), ref.V.val = 2 ∧ |a * 1e-5| ≤ 1e-9 := ⟨{ TPS.default with V := TS.mk5 2 0 0 0 .read }, 0, rfl, by norm_num⟩

/-- **C35 refuted at the reference point.**  The increments are integrated from zero pressure, but at exactly the reference temperature and
pressure none are added: the Gibbs energy of every mineral jumps there, so it has no slope in pressure. -/
theorem C35_reference_refuted (Tst Pr : ℝ) (ref tps : TPS) (k0 a : ℝ) (h : MurnOk ref k0 a) (hPr : 0 < Pr) :
    let f := fun t p => murnaghan (TS.temperature t) (pbar p) Tst Pr ref k0 a tps
    ¬ ContinuousAt (fun p => (f Tst p).G.val) Pr ∧ ∀ d, ¬ HasDerivAt (fun p => (f Tst p).G.val) d Pr := by
  intro f
  have hk : 0 < k0 := lt_trans (by norm_num) h.bulk
  have hc' : (1 - 1.5e-4 * (Tst - Tst) : ℝ) ≠ 0 := by norm_num
  have hK : hpK k0 Tst Tst = k0 := by simp [hpK]
  have hp : 0 < kbar Pr := by unfold kbar; positivity
  have hq1 : 1 < hpq k0 Tst (kbar Pr) Tst := by
    have : 0 < 4 * kbar Pr / k0 := by positivity
    simp only [hpq, hK]; linarith
  have key : ¬ ContinuousAt (fun p => (f Tst p).G.val) Pr := by
    intro hcont
    have h0 : (f Tst Pr).G.val = tps.G.val := by
      have := (murnaghan_vals_missing Tst Pr Tst Pr ref k0 a tps (Or.inl ⟨rfl, rfl⟩)).2.1
      simpa using this
    have hkb : ContinuousAt kbar Pr := (((hasDerivAt_id' Pr).div_const _).div_const _ : HasDerivAt kbar _ Pr).continuousAt
    have hc1 : ContinuousAt (fun p => tps.G.val + hpG ref.V.val (a * 1e-5) k0 Tst (kbar p) Tst) Pr :=
      continuousAt_const.add (ContinuousAt.comp (g := fun p => hpG ref.V.val (a * 1e-5) k0 Tst p Tst)
        (hpG_deriv_p hk.ne' hc' (by linarith)).continuousAt hkb)
    have hlim1 := (hcont.tendsto.mono_left (nhdsWithin_le_nhds (s := {Pr}ᶜ)))
    have hlim2 : Filter.Tendsto (fun p => (f Tst p).G.val) (nhdsWithin Pr {Pr}ᶜ)
        (nhds (tps.G.val + hpG ref.V.val (a * 1e-5) k0 Tst (kbar Pr) Tst)) := by
      refine (hc1.tendsto.mono_left nhdsWithin_le_nhds).congr' ?_
      filter_upwards [self_mem_nhdsWithin] with p hp
      exact (murnaghan_vals Tst p Tst Pr ref k0 a tps h (Or.inl hp)).1.symm
    have e := tendsto_nhds_unique hlim1 hlim2
    rw [h0] at e
    have hV : ref.V.val ≠ 0 := by
      intro h0
      have := h.vol
      rw [h0] at this
      norm_num at this
    have hx : 1 < hpq k0 Tst (kbar Pr) Tst ^ (0.75 : ℝ) := Real.one_lt_rpow hq1 (by norm_num)
    have hz : hpG ref.V.val (a * 1e-5) k0 Tst (kbar Pr) Tst ≠ 0 := by
      have hx' : hpq k0 Tst (kbar Pr) Tst ^ (0.75 : ℝ) - 1 ≠ 0 := by linarith
      simp only [hpG, hK, hpV, sub_self, mul_zero, add_zero, sub_zero, mul_one]
      positivity
    exact hz (by linarith)
  exact ⟨key, fun d hd => key hd.continuousAt⟩

/-- Periclase-like parameters. -/
example : ∃ (ref : TPS) (k0 a Pr : ℝ), MurnOk ref k0 a ∧ 0 < Pr :=
  ⟨{ TPS.default with V := TS.mk5 1.125 0 0 0 .read }, 1650, 6.2, 1e5,
    ⟨by norm_num [abs_of_pos], by norm_num [abs_of_pos], by norm_num⟩, by norm_num⟩

end ThermoFun

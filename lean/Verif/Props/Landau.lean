import Verif.Props.Solids
import Mathlib.Analysis.SpecialFunctions.Trigonometric.Basic

/-!
Properties C36 and C70: the Landau model of Holland and Powell.
-/

set_option linter.unusedSimpArgs false

namespace ThermoFun

lemma rpow_half_nonpos {x : ℝ} (hx : x ≤ 0) : x ^ (0.5 : ℝ) = 0 := by
  rcases hx.lt_or_eq with h | rfl
  · rw [Real.rpow_def_of_neg h, show (0.5 : ℝ) * Real.pi = Real.pi / 2 by ring, Real.cos_pi_div_two, mul_zero]
  · exact Real.zero_rpow (by norm_num)

lemma rpow_three_half_nonpos {x : ℝ} (hx : x ≤ 0) : x ^ (1.5 : ℝ) = 0 := by
  rcases hx.lt_or_eq with h | rfl
  · rw [Real.rpow_def_of_neg h, show (1.5 : ℝ) * Real.pi = Real.pi / 2 + Real.pi by ring, Real.cos_add_pi, Real.cos_pi_div_two, neg_zero,
      mul_zero]
  · exact Real.zero_rpow (by norm_num)

/-- The recorded transition parameters: critical temperature (°C) at zero pressure, entropy, volume. -/
structure LandauPar where
  Tc0 : ℝ
  Smax : ℝ
  Vmax : ℝ

/-- Critical temperature in K at a pressure in Pa. -/
noncomputable def LandauPar.Tc (l : LandauPar) (P : ℝ) : ℝ := l.Tc0 + l.Vmax / l.Smax * (P / 1e5) + 273.15
/-- Square of the order parameter at the reference temperature. -/
noncomputable def LandauPar.Q2 (l : LandauPar) (Tr : ℝ) : ℝ := (1 - Tr / (l.Tc0 + 273.15)) ^ (0.5 : ℝ)
/-- Sixth power of the order parameter at the reference temperature. -/
noncomputable def LandauPar.Q6 (l : LandauPar) (Tr : ℝ) : ℝ := (1 - Tr / (l.Tc0 + 273.15)) ^ (1.5 : ℝ)

/-- A mineral the model accepts: positive transition entropy, ordered at the reference temperature. -/
structure LandauOk (l : LandauPar) (Tr : ℝ) : Prop where
  ent : 0 < l.Smax
  tr : 0 < Tr
  ord : Tr < l.Tc0 + 273.15

lemma landau_vals (T P Tr : ℝ) (l : LandauPar) (rest : List ℝ) (k298 a : ℝ) (tps : TPS) (h : LandauOk l Tr) (hTc : 0 < l.Tc P)
    (r : TPS) (hr : landau (TS.temperature T) (pbar P) Tr (l.Tc0 :: l.Smax :: l.Vmax :: rest) k298 a tps = .ok r) :
    let V0 := l.Vmax * l.Q2 Tr
    let a0 := a * 1e-5
    let p := kbar P
    let w := 1 - T / l.Tc P
    r.G.val = tps.G.val + (l.Smax * (l.Tc0 + 273.15) * (l.Q2 Tr - l.Q6 Tr / 3) - T * l.Smax * l.Q2 Tr + hpG V0 a0 k298 Tr p T
      - 2 / 3 * l.Smax * l.Tc P * w ^ (1.5 : ℝ)) ∧
    r.S.val = tps.S.val + (l.Smax * (l.Q2 Tr - w ^ (0.5 : ℝ)) - hpE V0 a0 k298 Tr p T) ∧
    r.H.val = tps.H.val + (l.Smax * (l.Tc0 + 273.15) * (l.Q2 Tr - l.Q6 Tr / 3) - l.Smax * l.Tc P * (w ^ (0.5 : ℝ) - w ^ (1.5 : ℝ) / 3)
      + hpG V0 a0 k298 Tr p T - T * hpE V0 a0 k298 Tr p T) ∧
    (l.Tc P ≤ T → r.V.val = hpV V0 a0 Tr T ∧ r.Cp = tps.Cp) ∧
    (T < l.Tc P → r.Cp.val = tps.Cp.val + T * l.Smax / (2 * √(l.Tc P) * √(l.Tc P - T))) ∧
    r.U.val = r.H.val - P / 1e5 * r.V.val ∧ r.A.val = r.U.val - T * r.S.val := by
  intro V0 a0 p w
  have hS : ¬ l.Smax ≤ 0 := not_le.2 h.ent
  have hw0 : 0 ≤ 1 - Tr / (l.Tc0 + 273.15) := by
    have : Tr / (l.Tc0 + 273.15) < 1 := (div_lt_one (lt_trans h.tr h.ord)).2 h.ord
    linarith
  have hQ2 : ((1 - Tr / (l.Tc0 + 273.15)) ^ (0.25 : ℝ)) ^ (2 : ℝ) = l.Q2 Tr := by
    rw [← Real.rpow_mul hw0]; norm_num [LandauPar.Q2]
  have hQ6 : ((1 - Tr / (l.Tc0 + 273.15)) ^ (0.25 : ℝ)) ^ (6 : ℝ) = l.Q6 Tr := by
    rw [← Real.rpow_mul hw0]; norm_num [LandauPar.Q6]
  simp only [landau, Res.ok.injEq, if_neg hS] at hr
  rw [hQ2, hQ6] at hr
  set Tcr : TS := TS.addAssignD (if l.Vmax = 0 then TS.assign TS.default l.Tc0 else l.Tc0 + (l.Vmax / l.Smax : ℝ) * pbar P) 273.15 with hTcr
  have hTv : Tcr.val = l.Tc P := by
    rw [hTcr, val_addAssignD]
    by_cases hv : l.Vmax = 0
    · simp [hv, LandauPar.Tc, val_assign]
    · simp [hv, LandauPar.Tc]
  have hsq : ∀ x : ℝ, √x = x ^ (0.5 : ℝ) := fun x => by rw [Real.sqrt_eq_rpow]; norm_num
  clear_value Tcr
  by_cases hlt : T < l.Tc P
  · have hw : 0 < w := by
      have : T / l.Tc P < 1 := (div_lt_one hTc).2 hlt
      simp only [w]; linarith
    have hlt' : (TS.temperature T).val < Tcr.val := by rw [hTv]; exact hlt
    have hQv : (TS.powR ((1 : ℝ) - TS.temperature T / Tcr) 0.25).val = w ^ (0.25 : ℝ) := by
      simp [hTv, w]
    have hQ0 : (w ^ (0.25 : ℝ)) ≠ 0 := (Real.rpow_pos_of_pos hw _).ne'
    simp only [if_pos hlt'] at hr
    rw [if_neg (by rw [hQv]; exact fun hh => hQ0 hh.1)] at hr
    have e2 : (w ^ (0.25 : ℝ)) ^ (2 : ℝ) = w ^ (0.5 : ℝ) := by rw [← Real.rpow_mul hw.le]; norm_num
    have e6 : (w ^ (0.25 : ℝ)) ^ (6 : ℝ) = w ^ (1.5 : ℝ) := by rw [← Real.rpow_mul hw.le]; norm_num
    have e3 : w ^ (1.5 : ℝ) = w * w ^ (0.5 : ℝ) := by
      rw [show (1.5 : ℝ) = 1 + 0.5 by norm_num, Real.rpow_add hw, Real.rpow_one]
    subst hr
    simp only [TS.op_val_add, TS.op_val_addL, TS.op_val_addR, TS.op_val_neg, TS.op_val_sub, TS.op_val_subL, TS.op_val_subR,
      TS.op_val_mul, TS.op_val_mulL, TS.op_val_mulR, TS.op_val_div, TS.op_val_divL, TS.op_val_divR, TS.val_temperature, val_pbar,
      TS.val_addAssign, TS.val_powR, TS.val_sqrt, hTv, hpG, hpE, hpV, hpK, hpq, p, V0, a0, kbar]
    rw [show 1 - T / l.Tc P = w from rfl, e2, e6]
    refine ⟨?_, ?_, ?_, fun hge => absurd hlt (not_lt.2 hge), fun _ => ?_, ?_, ?_⟩
    · simp only [hsq]
      rw [e3]
      have hTw' : T - l.Tc P = -(l.Tc P * w) := by simp only [w]; field_simp; ring
      linear_combination l.Smax * w ^ (0.5 : ℝ) * hTw'
    · simp only [hsq]
    · simp only [hsq]; ring
    · trivial
    · trivial
    · trivial
  · have hlt' : ¬ (TS.temperature T).val < Tcr.val := by rw [hTv]; exact hlt
    have hw : w ≤ 0 := by
      have : 1 ≤ T / l.Tc P := (one_le_div hTc).2 (not_lt.1 hlt)
      simp only [w]; linarith
    simp only [if_neg hlt'] at hr
    rw [if_pos ⟨val_assign _ _, val_assign _ _⟩] at hr
    subst hr
    simp only [TS.op_val_add, TS.op_val_addL, TS.op_val_addR, TS.op_val_neg, TS.op_val_sub, TS.op_val_subL, TS.op_val_subR,
      TS.op_val_mul, TS.op_val_mulL, TS.op_val_mulR, TS.op_val_div, TS.op_val_divL, TS.op_val_divR, TS.val_temperature, val_pbar,
      TS.val_addAssign, TS.val_powR, TS.val_sqrt, hTv, hpG, hpE, hpV, hpK, hpq, p, V0, a0, kbar,
      rpow_half_nonpos hw, rpow_three_half_nonpos hw, Real.rpow_ofNat]
    refine ⟨?_, ?_, ?_, fun _ => ⟨?_, trivial⟩, fun h => absurd h hlt, ?_, ?_⟩
    · simp only [hsq]; ring
    · simp only [hsq]; ring
    · simp only [hsq]; ring
    · simp only [hsq]; ring
    · trivial
    · trivial

lemma rpow_three_half_deriv (x : ℝ) : HasDerivAt (fun x : ℝ => x ^ (1.5 : ℝ)) (1.5 * x ^ (0.5 : ℝ)) x :=
  (Real.hasDerivAt_rpow_const (Or.inr (by norm_num))).congr_deriv (by norm_num)

lemma landau_ok (T P Tr : ℝ) (l : LandauPar) (rest : List ℝ) (k298 a : ℝ) (tps : TPS) :
    ∃ r, landau (TS.temperature T) (pbar P) Tr (l.Tc0 :: l.Smax :: l.Vmax :: rest) k298 a tps = .ok r := ⟨_, rfl⟩

/-- **C36.**  At every temperature - below, at and above the transition - the slope of the Gibbs energy increment is minus the entropy
increment and dH = dG + T dS; G is continuous at the transition; above the transition the order parameter contributes nothing: the
entropy increment is Smax Q(Tr)² less the thermal expansion term, and Cp is untouched; below it Cp has the lambda-shaped term. -/
theorem C36_consistent (Tr : ℝ) (l : LandauPar) (rest : List ℝ) (k298 a : ℝ) (tps : TPS) (h : LandauOk l Tr) (hk : 0 < k298)
    (P : ℝ) (hP : 0 < P) (hTc : 0 < l.Tc P) :
    ∃ f : ℝ → TPS, (∀ t, landau (TS.temperature t) (pbar P) Tr (l.Tc0 :: l.Smax :: l.Vmax :: rest) k298 a tps = .ok (f t)) ∧
      (∀ T, 0 < T → 1.5e-4 * (T - Tr) < 1 →
        HasDerivAt (fun t => (f t).G.val) (-((f T).S.val - tps.S.val)) T ∧
        (f T).H.val - tps.H.val = ((f T).G.val - tps.G.val) + T * ((f T).S.val - tps.S.val) ∧
        (f T).U.val = (f T).H.val - P / 1e5 * (f T).V.val ∧ (f T).A.val = (f T).U.val - T * (f T).S.val) ∧
      (1.5e-4 * (l.Tc P - Tr) < 1 → ContinuousAt (fun t => (f t).G.val) (l.Tc P)) ∧
      (∀ T, l.Tc P ≤ T → (f T).Cp = tps.Cp ∧
        (f T).S.val = tps.S.val + l.Smax * l.Q2 Tr - hpE (l.Vmax * l.Q2 Tr) (a * 1e-5) k298 Tr (kbar P) T) ∧
      (∀ T, T < l.Tc P → (f T).Cp.val = tps.Cp.val + T * l.Smax / (2 * √(l.Tc P) * √(l.Tc P - T))) := by
  choose f hf using fun t => landau_ok t P Tr l rest k298 a tps
  have hv := fun t => landau_vals t P Tr l rest k298 a tps h hTc (f t) (hf t)
  have main : ∀ T, 0 < T → 1.5e-4 * (T - Tr) < 1 → HasDerivAt (fun t => (f t).G.val) (-((f T).S.val - tps.S.val)) T := by
    intro T hT hc
    have hc' : 0 < 1 - 1.5e-4 * (T - Tr) := by linarith
    have hK : 0 < hpK k298 Tr T := mul_pos hk hc'
    have hp : 0 < kbar P := by unfold kbar; positivity
    have hq : 0 < hpq k298 Tr (kbar P) T := by unfold hpq; positivity
    have hw : HasDerivAt (fun t => 1 - t / l.Tc P) (-(1 / l.Tc P)) T := ((hasDerivAt_id' T).div_const _).const_sub 1
    have hL := ((rpow_three_half_deriv (1 - T / l.Tc P)).comp T hw).const_mul (2 / 3 * l.Smax * l.Tc P)
    have hG := hpG_deriv (V0 := l.Vmax * l.Q2 Tr) (a0 := a * 1e-5) hT hk.ne' hc'.ne' hq
    have hl := (((hasDerivAt_id' T).mul_const l.Smax).mul_const (l.Q2 Tr)).const_sub (l.Smax * (l.Tc0 + 273.15) * (l.Q2 Tr - l.Q6 Tr / 3))
    have := ((hl.add hG).sub hL).const_add tps.G.val
    refine (this.congr_deriv ?_).congr_of_eventuallyEq (Filter.Eventually.of_forall fun t => ?_)
    · simp only [(hv T).2.1]
      field_simp
      ring
    · exact (hv t).1
  refine ⟨f, hf, fun T hT hc => ⟨main T hT hc, ?_, (hv T).2.2.2.2.2⟩, fun hc => (main _ hTc hc).continuousAt, fun T hT => ⟨((hv T).2.2.2.1 hT).2, ?_⟩,
    fun T hT => (hv T).2.2.2.2.1 hT⟩
  · rw [(hv T).1, (hv T).2.1, (hv T).2.2.1]
    have e : (1 - T / l.Tc P) ^ (1.5 : ℝ) = (1 - T / l.Tc P) * (1 - T / l.Tc P) ^ (0.5 : ℝ) := by
      rcases le_or_gt (1 - T / l.Tc P) 0 with h0 | h0
      · rw [rpow_three_half_nonpos h0, rpow_half_nonpos h0, mul_zero]
      · rw [show (1.5 : ℝ) = 1 + 0.5 by norm_num, Real.rpow_add h0, Real.rpow_one]
    rw [e]
    generalize (1 - T / l.Tc P) ^ (0.5 : ℝ) = x
    field_simp
    ring
  · rw [(hv T).2.1, rpow_half_nonpos]
    · ring
    · have : 1 ≤ T / l.Tc P := (one_le_div hTc).2 hT
      linarith

/-- Quartz-like parameters (Holland and Powell 1998): transition at 574 °C, Smax = 4.95 J/K, Vmax = 0.1188 J/bar, K = 750 kbar. -/
example : ∃ (Tr : ℝ) (l : LandauPar) (k298 P : ℝ), LandauOk l Tr ∧ 0 < k298 ∧ 0 < P ∧ 0 < l.Tc P ∧ 1.5e-4 * (l.Tc P - Tr) < 1 :=
  ⟨298.15, ⟨574, 4.95, 0.1188⟩, 750, 1e8, ⟨by norm_num, by norm_num, by norm_num⟩, by norm_num, by norm_num, by norm_num [LandauPar.Tc], by
    norm_num [LandauPar.Tc]⟩

/-- **C36, the zero of the increments.**  At the reference temperature and zero pressure the Landau increments of G, S and H vanish: the
recorded reference properties are those of the partly ordered mineral. -/
theorem C36_reference (Tr : ℝ) (l : LandauPar) (rest : List ℝ) (k298 a : ℝ) (tps : TPS) (h : LandauOk l Tr) :
    ∃ r, landau (TS.temperature Tr) (pbar 0) Tr (l.Tc0 :: l.Smax :: l.Vmax :: rest) k298 a tps = .ok r ∧
      r.G.val = tps.G.val ∧ r.S.val = tps.S.val ∧ r.H.val = tps.H.val := by
  obtain ⟨r, hr⟩ := landau_ok Tr 0 Tr l rest k298 a tps
  have hT0 : l.Tc 0 = l.Tc0 + 273.15 := by simp [LandauPar.Tc]
  have hpos : 0 < l.Tc0 + 273.15 := lt_trans h.tr h.ord
  obtain ⟨g1, g2, g3, -⟩ := landau_vals Tr 0 Tr l rest k298 a tps h (by rw [hT0]; exact hpos) r hr
  have hw : 0 < 1 - Tr / (l.Tc0 + 273.15) := by
    have : Tr / (l.Tc0 + 273.15) < 1 := (div_lt_one hpos).2 h.ord
    linarith
  have e : l.Q6 Tr = (1 - Tr / (l.Tc0 + 273.15)) * l.Q2 Tr := by
    unfold LandauPar.Q6 LandauPar.Q2
    rw [show (1.5 : ℝ) = 1 + 0.5 by norm_num, Real.rpow_add hw, Real.rpow_one]
  have hG : ∀ V a0, hpG V a0 k298 Tr (kbar 0) Tr = 0 := by intro V a0; simp [hpG, hpq, kbar]
  have hE : ∀ V a0, hpE V a0 k298 Tr (kbar 0) Tr = 0 := by intro V a0; simp [hpE, hpq, kbar]
  have e5 : (1 - Tr / l.Tc 0) ^ (0.5 : ℝ) = l.Q2 Tr := by rw [hT0]; rfl
  have e15 : (1 - Tr / l.Tc 0) ^ (1.5 : ℝ) = l.Q6 Tr := by rw [hT0]; rfl
  rw [hG, e15, hT0, e] at g1
  rw [hE, e5] at g2
  rw [hG, hE, e5, e15, hT0, e] at g3
  refine ⟨r, hr, ?_, ?_, ?_⟩
  · rw [g1]; field_simp; ring
  · rw [g2]; ring
  · rw [g3]; ring

/-! ### C70: volume and heat capacity of the Landau model -/

/-- **C70 refuted for the heat capacity.**  Above the transition, for a mineral with a transition volume and no thermal expansivity at a
positive pressure: the entropy increment changes with temperature (through the bulk modulus) but the reported heat capacity has no increment. -/
theorem C70_heat_capacity_refuted (Tr : ℝ) (l : LandauPar) (rest : List ℝ) (k298 : ℝ) (tps : TPS) (h : LandauOk l Tr) (hk : 0 < k298)
    (hV : l.Vmax ≠ 0) (P : ℝ) (hP : 0 < P) (hTc : 0 < l.Tc P) (T : ℝ) (hT : l.Tc P < T) (hc : 1.5e-4 * (T - Tr) < 1) :
    ∃ f : ℝ → TPS, (∀ t, landau (TS.temperature t) (pbar P) Tr (l.Tc0 :: l.Smax :: l.Vmax :: rest) k298 0 tps = .ok (f t)) ∧
      ¬ HasDerivAt (fun t => (f t).S.val) (((f T).Cp.val - tps.Cp.val) / T) T := by
  choose f hf using fun t => landau_ok t P Tr l rest k298 0 tps
  have hv := fun t => landau_vals t P Tr l rest k298 0 tps h hTc (f t) (hf t)
  refine ⟨f, hf, fun hd => ?_⟩
  have hT0 : 0 < T := lt_trans hTc hT
  have hc' : 0 < 1 - 1.5e-4 * (T - Tr) := by linarith
  have hK : 0 < hpK k298 Tr T := mul_pos hk hc'
  have hp : 0 < kbar P := by unfold kbar; positivity
  have hq : 0 < hpq k298 Tr (kbar P) T := by unfold hpq; positivity
  have hE := (hpE_deriv (V0 := l.Vmax * l.Q2 Tr) (a0 := 0 * 1e-5) hT0 hk.ne' hc'.ne' hq).const_sub (tps.S.val + l.Smax * l.Q2 Tr)
  have hd2 := hE.congr_of_eventuallyEq (f₁ := fun t => (f t).S.val) (by
    filter_upwards [lt_mem_nhds hT] with t ht
    rw [(hv t).2.1, rpow_half_nonpos]
    · ring
    · have : 1 ≤ t / l.Tc P := (one_le_div hTc).2 ht.le
      linarith)
  have e := hd.unique hd2
  rw [((hv T).2.2.2.1 hT.le).2, sub_self, zero_div] at e
  have hQ : l.Q2 Tr ≠ 0 := by
    have : Tr / (l.Tc0 + 273.15) < 1 := (div_lt_one (lt_trans h.tr h.ord)).2 h.ord
    exact (Real.rpow_pos_of_pos (by linarith) _).ne'
  have hz : hpq k298 Tr (kbar P) T ^ (-1.25 : ℝ) ≠ 0 := (Real.rpow_pos_of_pos hq _).ne'
  simp only [hpV, zero_mul, mul_zero, sub_zero, zero_div, add_zero, mul_one, zero_sub, neg_mul, neg_neg] at e
  have : l.Vmax * l.Q2 Tr * kbar P ^ 2 * 1.5e-4 ^ 2 / ((1 - 1.5e-4 * (T - Tr)) ^ 3 * k298) * hpq k298 Tr (kbar P) T ^ (-1.25 : ℝ) * 1000 ≠ 0 := by
    have h1 := hp.ne'
    have h2 := hc'.ne'
    have h3 := hk.ne'
    refine mul_ne_zero (mul_ne_zero (div_ne_zero ?_ ?_) hz) (by norm_num)
    · exact mul_ne_zero (mul_ne_zero (mul_ne_zero hV hQ) (pow_ne_zero _ h1)) (by norm_num)
    · exact mul_ne_zero (pow_ne_zero _ h2) h3
  exact this e.symm

/-- **C70 refuted for the volume.**  Above the transition, at a positive pressure, the slope of the Gibbs energy in pressure is the volume
compressed to that pressure; the reported volume is that at zero pressure. -/
theorem C70_volume_refuted (Tr : ℝ) (l : LandauPar) (rest : List ℝ) (k298 a : ℝ) (tps : TPS) (h : LandauOk l Tr) (hk : 0 < k298)
    (P : ℝ) (hP : 0 < P) (hTc : 0 < l.Tc P) (T : ℝ) (hT : l.Tc P < T) (hc : 1.5e-4 * (T - Tr) < 1)
    (hV : hpV (l.Vmax * l.Q2 Tr) (a * 1e-5) Tr T ≠ 0) :
    ∃ f : ℝ → TPS, (∀ p, landau (TS.temperature T) (pbar p) Tr (l.Tc0 :: l.Smax :: l.Vmax :: rest) k298 a tps = .ok (f p)) ∧
      ¬ HasDerivAt (fun p => (f p).G.val) ((f P).V.val / 1e5) P := by
  choose f hf using fun p => landau_ok T p Tr l rest k298 a tps
  have hv := fun p (hp : 0 < l.Tc p) => landau_vals T p Tr l rest k298 a tps h hp (f p) (hf p)
  refine ⟨f, hf, fun hd => ?_⟩
  have hc' : 0 < 1 - 1.5e-4 * (T - Tr) := by linarith
  have hK : 0 < hpK k298 Tr T := mul_pos hk hc'
  have hp : 0 < kbar P := by unfold kbar; positivity
  have hq1 : 1 < hpq k298 Tr (kbar P) T := by
    have : 0 < 4 * kbar P / hpK k298 Tr T := by positivity
    unfold hpq; linarith
  have hq : 0 < hpq k298 Tr (kbar P) T := by linarith
  have hcTc : ContinuousAt l.Tc P := by
    have : HasDerivAt l.Tc (l.Vmax / l.Smax * (1 / 1e5)) P :=
      ((((hasDerivAt_id' P).div_const 1e5).const_mul (l.Vmax / l.Smax)).const_add l.Tc0).add_const 273.15
    exact this.continuousAt
  have hkb : HasDerivAt kbar (1 / 1e5 / 1000) P := ((hasDerivAt_id' P).div_const _).div_const _
  have hG := (((hpG_deriv_p (V0 := l.Vmax * l.Q2 Tr) (a0 := a * 1e-5) hk.ne' hc'.ne' hq).comp P hkb)).const_add
    (tps.G.val + (l.Smax * (l.Tc0 + 273.15) * (l.Q2 Tr - l.Q6 Tr / 3) - T * l.Smax * l.Q2 Tr))
  have hd2 := hG.congr_of_eventuallyEq (f₁ := fun p => (f p).G.val) (by
    filter_upwards [hcTc.eventually (gt_mem_nhds hT), hcTc.eventually (lt_mem_nhds hTc)] with p h1 h2
    rw [(hv p h2).1, rpow_three_half_nonpos]
    · simp only [Function.comp]; ring
    · have : 1 ≤ T / l.Tc p := (one_le_div h2).2 h1.le
      linarith)
  have e := hd.unique hd2
  rw [((hv P hTc).2.2.2.1 hT.le).1] at e
  have hlt : hpq k298 Tr (kbar P) T ^ (-0.25 : ℝ) < 1 := Real.rpow_lt_one_of_one_lt_of_neg hq1 (by norm_num)
  have : hpV (l.Vmax * l.Q2 Tr) (a * 1e-5) Tr T * (hpq k298 Tr (kbar P) T ^ (-0.25 : ℝ) - 1) = 0 := by
    linear_combination -(1e5 : ℝ) * e
  rcases mul_eq_zero.1 this with h0 | h0
  · exact hV h0
  · linarith

/-- Quartz at 1000 °C and 1 kbar: above its transition. -/
example : ∃ (Tr : ℝ) (l : LandauPar) (k298 P T : ℝ), LandauOk l Tr ∧ 0 < k298 ∧ l.Vmax ≠ 0 ∧ 0 < P ∧ 0 < l.Tc P ∧ l.Tc P < T ∧
    1.5e-4 * (T - Tr) < 1 ∧ hpV (l.Vmax * l.Q2 Tr) (0 * 1e-5) Tr T ≠ 0 := by
  refine ⟨298.15, ⟨574, 4.95, 0.1188⟩, 750, 1e8, 1273, ⟨by norm_num, by norm_num, by norm_num⟩, by norm_num, by norm_num, by norm_num,
    by norm_num [LandauPar.Tc], by norm_num [LandauPar.Tc], by norm_num, ?_⟩
  have : (0 : ℝ) < (1 - 298.15 / (574 + 273.15)) ^ (0.5 : ℝ) := Real.rpow_pos_of_pos (by norm_num) _
  simp only [hpV, LandauPar.Q2, zero_mul, mul_zero, add_zero, sub_zero, mul_one]
  exact mul_ne_zero (by norm_num) this.ne'

/-! ### C71 -/

/-- U and A follow from H, S, V at T (K) and P (Pa). -/
def EnergiesFollow (r : TPS) (T P : ℝ) : Prop := r.U.val = r.H.val - P / 1e5 * r.V.val ∧ r.A.val = r.U.val - T * r.S.val

/-- **C71, the part that holds**: the constant volume model with a volume, the ideal gas with the pressure correction, the Murnaghan and the
Landau model everywhere, the Berman model off the reference point.  Missing: the Berman model at the reference point, the constant
volume model without volume. -/
theorem C71_partial (T P Tr Pr : ℝ) (ref tps : TPS) :
    (ref.V.has → EnergiesFollow (conMolVol T P ref Pr tps) T P) ∧
    (∀ gas, EnergiesFollow (idealGasLawVol T P gas Pr tps true) T P) ∧
    (∀ k0 a, EnergiesFollow (murnaghan (TS.temperature T) (pbar P) Tr Pr ref k0 a tps) T P) ∧
    (∀ l k a r, landau (TS.temperature T) (pbar P) Tr l k a tps = .ok r → EnergiesFollow r T P) ∧
    (∀ vc r, P ≠ Pr ∨ T ≠ Tr → berman88 (TS.temperature T) (pbar P) Tr Pr ref vc tps = .ok r → EnergiesFollow r T P) := by
  refine ⟨fun h => ?_, fun gas => ?_, fun k0 a => ?_, fun l k a r h => ?_, fun vc r hne h => ?_⟩
  · simp [EnergiesFollow, conMolVol, h]
  · simp [EnergiesFollow, idealGasLawVol, applyPressure]
  · unfold murnaghan
    simp only
    split <;> simp [EnergiesFollow]
  · unfold landau at h
    split at h
    · simp only [Res.ok.injEq] at h
      subst h
      simp [EnergiesFollow]
    · exact absurd h (by simp)
  · unfold berman88 at h
    have hc : (pbar P - Pr / 1e5).val ≠ 0 ∨ (TS.temperature T - Tr).val ≠ 0 := by
      rcases hne with h1 | h1
      · left
        simp only [TS.op_val_subR, val_pbar]
        rw [← sub_div]
        exact div_ne_zero (sub_ne_zero.2 h1) (by norm_num)
      · right
        simp only [TS.op_val_subR, TS.val_temperature]
        exact sub_ne_zero.2 h1
    split at h
    · exact absurd h (by simp)
    · split at h
      · simp only [if_pos hc, Res.ok.injEq] at h
        subst h
        simp [EnergiesFollow]
      · exact absurd h (by simp)

/-- A mineral off its reference point. -/
example : ∃ (P Pr T Tr : ℝ), P ≠ Pr ∨ T ≠ Tr := ⟨1e8, 1e5, 500, 298.15, Or.inl (by norm_num)⟩

/-- **C71 refuted.**  At exactly the reference temperature and pressure the Berman model reports H, V and S but leaves U as it was; so does the
constant volume model when no volume is recorded. -/
theorem C71_refuted :
    (∀ (Tr Pr : ℝ) (ref tps : TPS) (v0 v1 v2 v3 v4 : ℝ), ∃ r,
      berman88 (TS.temperature Tr) (pbar Pr) Tr Pr ref [v0, v1, v2, v3, v4] tps = .ok r ∧ r.U = tps.U ∧ r.H = tps.H ∧
      (tps.U.val ≠ tps.H.val - Pr / 1e5 * ref.V.val → ¬ EnergiesFollow r Tr Pr)) ∧
    (∃ (T P Pr : ℝ) (ref tps : TPS), ¬ EnergiesFollow (conMolVol T P ref Pr tps) T P) := by
  refine ⟨fun Tr Pr ref tps v0 v1 v2 v3 v4 => ?_, 300, 1e5, 1e5, TPS.default, { TPS.default with H := TS.mk5 1 0 0 0 .read }, ?_⟩
  · have hc : ¬ ((pbar Pr - Pr / 1e5).val ≠ 0 ∨ (TS.temperature Tr - Tr).val ≠ 0) := by simp
    refine ⟨{ tps with V := ref.V }, ?_, rfl, rfl, fun hne h => hne h.1⟩
    simp only [berman88, List.length_cons, List.length_nil, ne_eq, Nat.reduceAdd, not_true_eq_false, if_false]
    rw [if_neg hc]
  · have hn : ¬ TPS.default.V.has := by simp [TS.has, TS.default, TPS.default, TS.ofVal, TS.mk5]
    rw [(C33_constant_volume 300 1e5 1e5 TPS.default _).2 hn]
    intro h
    have := h.1
    simp [TPS.default, TS.default, TS.ofVal, TS.mk5] at this

end ThermoFun

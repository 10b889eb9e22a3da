import Verif.Props.BirchMurnaghan

/-!
The properties returned by the Birch-Murnaghan model of solids.
-/

namespace ThermoFun.BM

open Set Topology Filter

/-! ### Values -/

/-- The coefficients of the soft solid: expansion 10⁻³/K, K = 1000 MPa, K' = 4, no K''. -/
noncomputable def exC : List ℝ := [1e-3, 0, 0, 0, 0, 1000, 0, 4, 0]

/-- Its volume at a temperature. -/
noncomputable def exVt (T : ℝ) : ℝ := 10 * Real.exp (1e-3 * (T - 300))

/-- Its volume at a temperature and pressure. -/
noncomputable def exV (T p : ℝ) : ℝ := vol p (exVt T) 1000 4 exK2 (exVt T * Real.exp (-1 / 1000 * (p - 0.1)))

lemma val_mulAssignD (a : TS) (c : ℝ) : (TS.mulAssignD a c).val = a.val * c := rfl

lemma ex_entry (T P : ℝ) (ref tps : TPS) (hV : ref.V.val = 1) (hP : P ≠ 1e5) :
    ∃ r, bmEntry T P 300 1e5 ref exC tps = .ok r ∧
      r.V.val = tps.V.val + (1 + exV T (P * 1e-6) / 10) ∧
      r.G.val = tps.G.val + exPhi (P * 1e-6) (exVt T) (exV T (P * 1e-6)) ∧
      r.S.val = tps.S.val + (exPhi (P * 1e-6) (exVt (T + 0.1)) (vol (P * 1e-6) (exVt (T + 0.1)) 1000 4 exK2 (exV T (P * 1e-6)))
        - exPhi (P * 1e-6) (exVt (T - 0.1)) (vol (P * 1e-6) (exVt (T - 0.1)) 1000 4 exK2 (exV T (P * 1e-6)))) / (2 * 0.1) := by
  have hp : P / 1e5 * 0.1 = P * 1e-6 := by ring
  unfold bmEntry bmGottschalk
  dsimp only
  rw [if_neg (by simp [exC]), if_pos (by
    left
    simp only [TS.op_val_subR, val_mulAssignD, val_pbar]
    intro h
    apply hP
    linarith), if_neg (by simp [exC])]
  have k0 : ∀ t : ℝ, 1000 + 0 * (t - 300) = (1000 : ℝ) := fun t => by ring
  have k2 : -((35 / 9 + (3 - 4) * (4 - 4)) / 1000) = exK2 := by unfold exK2; norm_num
  have kv : ∀ t : ℝ, 1 * 10 * Real.exp (1e-3 * (t - 300) + 0 / 2 * (t * t - 300 * 300) + 0 * (-1 / t + 1 / 300)) = exVt t := by
    intro t
    unfold exVt
    rw [show 1e-3 * (t - 300) + 0 / 2 * (t * t - 300 * 300) + 0 * (-1 / t + 1 / 300) = 1e-3 * (t - 300) by ring]
    ring
  have kP : 0.1 * 1e5 / 1e5 = (0.1 : ℝ) := by norm_num
  refine ⟨_, rfl, ?_, ?_, ?_⟩
  · simp only [birchMurnaghan, exC, List.getD_cons_zero, List.getD_cons_succ, TS.val_addAssign, TS.op_val_add, TS.op_val_divR, volume_val, refVolume, defaultKpp,
      TS.op_val_mul, TS.op_val_mulR, TS.op_val_sub, TS.op_val_subR, TS.val_exp, TS.op_val_divL, val_assign, TS.val_temperature, val_mulAssignD, val_pbar,
      TS.op_val_addL, TS.op_val_neg, TS.op_val_div, TS.op_val_subL, abs_zero, hV]
    rw [if_neg (by norm_num)]
    simp only [TS.op_val_neg, TS.op_val_div, TS.op_val_subL, TS.op_val_mul, TS.op_val_addL, TS.op_val_add, TS.op_val_sub, val_assign, TS.val_temperature, hp, kP, k0, k2, kv]
    rfl
  · simp only [birchMurnaghan, exC, List.getD_cons_zero, List.getD_cons_succ, TS.val_addAssign, intVol_val, volume_val, refVolume, defaultKpp, TS.op_val_add, TS.op_val_divR,
      TS.op_val_mul, TS.op_val_mulR, TS.op_val_sub, TS.op_val_subR, TS.val_exp, TS.op_val_divL, val_assign, TS.val_temperature, val_mulAssignD, val_pbar,
      TS.op_val_addL, TS.op_val_neg, TS.op_val_div, TS.op_val_subL, abs_zero, hV, TS.val_pressure]
    rw [if_neg (by norm_num)]
    simp only [TS.op_val_neg, TS.op_val_div, TS.op_val_subL, TS.op_val_mul, TS.op_val_addL, TS.op_val_add, TS.op_val_sub, val_assign, TS.val_temperature, hp, kP, k0, k2, kv]
    rfl
  · simp only [birchMurnaghan, exC, List.getD_cons_zero, List.getD_cons_succ, TS.val_addAssign, intVol_val, volume_val, refVolume, defaultKpp, TS.op_val_add, TS.op_val_divR,
      TS.op_val_mul, TS.op_val_mulL, TS.op_val_mulR, TS.op_val_sub, TS.op_val_subR, TS.val_exp, TS.op_val_divL, val_assign, TS.val_temperature, val_mulAssignD, val_pbar,
      TS.op_val_addL, TS.op_val_neg, TS.op_val_div, TS.op_val_subL, abs_zero, hV, TS.val_pressure]
    rw [if_neg (by norm_num), if_neg (by norm_num), if_neg (by norm_num)]
    simp only [TS.op_val_neg, TS.op_val_div, TS.op_val_subL, TS.op_val_mul, TS.op_val_addL, TS.op_val_add, TS.op_val_sub, val_assign, TS.val_temperature, hp, kP, k0, k2, kv]
    rfl

/-! ### C108: the properties returned -/

/-- **C108** (partial): the increments keep G = H - TS, and U = H - PV and A = U - TS hold for the properties returned, for all records and
states.
Missing from C108: dG/dT = -S and dG/dP = V, see below. -/
theorem C108_gibbs_partial (T P Tst Pr : ℝ) (ref tps r : TPS) (c : List ℝ) (h : bmEntry T P Tst Pr ref c tps = .ok r) :
    (tps.G.val = tps.H.val - T * tps.S.val → r.G.val = r.H.val - T * r.S.val) ∧
    (P = Pr ∧ T = Tst ∧ r = tps ∨ r.U.val = r.H.val - P / 1e5 * r.V.val ∧ r.A.val = r.U.val - T * r.S.val) := by
  unfold bmEntry bmGottschalk at h
  dsimp only at h
  by_cases h1 : c.length < 8
  · rw [if_pos h1] at h; cases h
  rw [if_neg h1] at h
  by_cases h2 : (TS.mulAssignD (pbar P) 0.1 - 0.1 * Pr / 1e5).val ≠ 0 ∨ (TS.temperature (TS.temperature T).val - Tst).val ≠ 0
  · rw [if_pos h2] at h
    by_cases h3 : c.length = 8
    · rw [if_pos h3] at h; cases h
    rw [if_neg h3] at h
    cases h
    refine ⟨fun hg => ?_, Or.inr ⟨?_, ?_⟩⟩
    · simp only [birchMurnaghan, TS.val_addAssign, TS.op_val_add, TS.op_val_mul, TS.val_temperature]
      linear_combination hg
    · simp only [TS.val_addAssign, TS.op_val_add, TS.op_val_sub, TS.op_val_mul, val_pbar]
    · simp only [TS.val_addAssign, TS.op_val_add, TS.op_val_sub, TS.op_val_mul, TS.val_temperature]
  · rw [if_neg h2] at h
    cases h
    push Not at h2
    simp only [TS.op_val_subR, val_mulAssignD, val_pbar, TS.val_temperature] at h2
    exact ⟨id, Or.inl ⟨by linarith [h2.1], by linarith [h2.2], rfl⟩⟩

lemma exp_small {x y : ℝ} (h : x ≤ y) (hy : y < 1) : Real.exp x * (1 - y) ≤ 1 := by
  have h1 := Real.add_one_le_exp (-x)
  have h2 : Real.exp x * Real.exp (-x) = 1 := by rw [← Real.exp_add, add_neg_cancel, Real.exp_zero]
  have h3 := Real.exp_pos x
  nlinarith

lemma exVt_bounds {T : ℝ} (h1 : 299 ≤ T) (h2 : T ≤ 302) : 9.9 ≤ exVt T ∧ exVt T ≤ 10.1 := by
  unfold exVt
  have a := Real.add_one_le_exp (1e-3 * (T - 300))
  have b := exp_small (x := 1e-3 * (T - 300)) (y := 0.002) (by linarith) (by norm_num)
  constructor <;> linarith

lemma exV_bounds {T p : ℝ} (h1 : 299 ≤ T) (h2 : T ≤ 302) (hp : 0.1 ≤ p) (hp2 : p ≤ 10) :
    exV T p ∈ Icc (0.979 * exVt T) (1.001 * exVt T) := by
  obtain ⟨u, c, hu1, hu2, -, h⟩ := ex_vol (p := p) (by linarith) hp2
  obtain ⟨b1, b2⟩ := exVt_bounds h1 h2
  have e1 := Real.add_one_le_exp (-1 / 1000 * (p - 0.1))
  have e2 : Real.exp (-1 / 1000 * (p - 0.1)) ≤ 1 := Real.exp_le_one_iff.mpr (by linarith)
  have hs : exVt T * Real.exp (-1 / 1000 * (p - 0.1)) ∈ Icc (0.97 * exVt T) (1.01 * exVt T) := ⟨by nlinarith, by nlinarith⟩
  have := (h (exVt T) _ (by linarith) (by linarith) hs).1
  rw [abs_le] at this
  change exV T p ∈ _
  have h3 : -1e-6 ≤ exV T p - exVt T * u ∧ exV T p - exVt T * u ≤ 1e-6 := this
  exact ⟨by nlinarith [h3.1], by nlinarith [h3.2]⟩

example : ∃ r, bmEntry 350 1e6 300 1e5 { TPS.default with V := TS.ofVal 1 } exC { TPS.default with G := TS.ofVal (-1000), S := TS.ofVal 10, H := TS.ofVal 2500 } = .ok r ∧
    r.G.val = r.H.val - 350 * r.S.val := by
  obtain ⟨r, hr, -⟩ := ex_entry 350 1e6 { TPS.default with V := TS.ofVal 1 }
    { TPS.default with G := TS.ofVal (-1000), S := TS.ofVal 10, H := TS.ofVal 2500 } rfl (by norm_num)
  refine ⟨r, hr, (C108_gibbs_partial _ _ _ _ _ _ _ _ hr).1 ?_⟩
  simp only [TS.val_ofVal]
  norm_num

/-- **C108** is violated: compressing the solid more than doubles its volume.  At the reference temperature and any pressure from 0.2 to 10 MPa
the volume returned is more than 2.9 times the volume at the reference pressure, because the reference volume is added to the volume
that came in, which is the reference volume already, and to the volume computed. -/
theorem C108_volume_refuted (P : ℝ) (ref tps : TPS) (hV : ref.V.val = 1) (hV2 : tps.V = ref.V) (h1 : 2e5 ≤ P) (h2 : P ≤ 1e7) :
    ∃ r r0, bmEntry 300 P 300 1e5 ref exC tps = .ok r ∧ bmEntry 300 1e5 300 1e5 ref exC tps = .ok r0 ∧ r0.V.val = 1 ∧ 2.9 * r0.V.val < r.V.val := by
  obtain ⟨r, hr, rV, -⟩ := ex_entry 300 P ref tps hV (by linarith)
  have h0 : bmEntry 300 1e5 300 1e5 ref exC tps = .ok tps := by
    unfold bmEntry bmGottschalk
    dsimp only
    rw [if_neg (by simp [exC]), if_neg]
    push Not
    simp only [TS.op_val_subR, val_mulAssignD, val_pbar, TS.val_temperature]
    norm_num
  refine ⟨r, tps, hr, h0, by rw [hV2, hV], ?_⟩
  obtain ⟨b1, b2⟩ := exVt_bounds (T := 300) (by norm_num) (by norm_num)
  have := (exV_bounds (T := 300) (p := P * 1e-6) (by norm_num) (by norm_num) (by linarith) (by linarith)).1
  rw [rV, hV2, hV]
  linarith

example : ∃ r r0, bmEntry 300 1e6 300 1e5 { TPS.default with V := TS.ofVal 1 } exC { TPS.default with V := TS.ofVal 1 } = .ok r ∧
    bmEntry 300 1e5 300 1e5 { TPS.default with V := TS.ofVal 1 } exC { TPS.default with V := TS.ofVal 1 } = .ok r0 ∧ r0.V.val = 1 ∧ 2.9 * r0.V.val < r.V.val :=
  C108_volume_refuted 1e6 _ _ rfl rfl (by norm_num) (by norm_num)

/-- **C108** is violated: dG/dP = V fails somewhere between 5 and 10 MPa, whatever non-negative volume comes in. -/
theorem C108_slope_refuted (ref tps : TPS) (hV : ref.V.val = 1) (hV2 : 0 ≤ tps.V.val) (r : ℝ → TPS)
    (hr : ∀ P ∈ Icc (5e6 : ℝ) 1e7, bmEntry 300 P 300 1e5 ref exC tps = .ok (r P)) :
    ¬ ∀ P ∈ Icc (5e6 : ℝ) 1e7, HasDerivAt (fun P => (r P).G.val) ((r P).V.val / 1e5) P := by
  intro hd
  have hvals : ∀ P ∈ Icc (5e6 : ℝ) 1e7, (r P).V.val = tps.V.val + (1 + exV 300 (P * 1e-6) / 10) ∧
      (r P).G.val = tps.G.val + exPhi (P * 1e-6) (exVt 300) (exV 300 (P * 1e-6)) := by
    intro P hP
    obtain ⟨r', h1, h2, h3, -⟩ := ex_entry 300 P ref tps hV (by linarith [hP.1])
    rw [hr P hP] at h1
    cases h1
    exact ⟨h2, h3⟩
  have hvt : exVt 300 = 10 := by unfold exVt; norm_num
  obtain ⟨c, hc, hc2⟩ := exists_hasDerivAt_eq_slope (fun P => (r P).G.val) (fun P => (r P).V.val / 1e5) (show (5e6 : ℝ) < 1e7 by norm_num)
    (fun x hx => (hd x hx).continuousAt.continuousWithinAt) (fun x hx => hd x (Ioo_subset_Icc_self hx))
  have hc3 := Ioo_subset_Icc_self hc
  have v1 := exV_bounds (T := 300) (p := c * 1e-6) (by norm_num) (by norm_num) (by linarith [hc3.1]) (by linarith [hc3.2])
  have v2 := exV_bounds (T := 300) (p := 5e6 * 1e-6) (by norm_num) (by norm_num) (by norm_num) (by norm_num)
  have v3 := exV_bounds (T := 300) (p := 1e7 * 1e-6) (by norm_num) (by norm_num) (by norm_num) (by norm_num)
  rw [hvt] at v1 v2 v3
  rw [(hvals c hc3).1, (hvals _ (right_mem_Icc.mpr (by norm_num))).2, (hvals _ (left_mem_Icc.mpr (by norm_num))).2, hvt] at hc2
  have hPhi : ∀ p v, v ∈ Icc (0.979 * 10 : ℝ) (1.001 * 10) → -1 + p * v ≤ exPhi p 10 v ∧ exPhi p 10 v ≤ -1 + p * v + 5 := by
    intro p v hv
    have hv0 : 0 < v := lt_of_lt_of_le (by norm_num) hv.1
    obtain ⟨y, hy, f1, f2, f3, f4⟩ := cube_sub (vt := 10) (v := v) (by norm_num) hv0
    obtain ⟨y1, y2⟩ := ex_y hv0 (by norm_num) hy f4 (by linarith [hv.1]) (by linarith [hv.2])
    unfold exPhi
    rw [ex_Int hv0 f1 f2 f4]
    have : (y ^ 2 - 1) ^ 2 ≤ 0.021 ^ 2 := by
      rw [sq_le_sq, abs_of_pos (by norm_num : (0 : ℝ) < 0.021), abs_le]
      constructor <;> nlinarith
    constructor
    · nlinarith [sq_nonneg (y ^ 2 - 1)]
    · nlinarith
  have p2 := (hPhi (5e6 * 1e-6) _ v2).1
  have p3 := (hPhi (1e7 * 1e-6) _ v3).2
  rw [eq_div_iff (by norm_num)] at hc2
  have := v1.1
  have := v2.1
  have := v3.2
  norm_num at *
  nlinarith

/-- The hypotheses hold for a solid whose record has V = 1 J/bar. -/
example : ∃ r : ℝ → TPS, (∀ P ∈ Icc (5e6 : ℝ) 1e7, bmEntry 300 P 300 1e5 { TPS.default with V := TS.ofVal 1 } exC { TPS.default with V := TS.ofVal 1 } = .ok (r P)) ∧
    ¬ ∀ P ∈ Icc (5e6 : ℝ) 1e7, HasDerivAt (fun P => (r P).G.val) ((r P).V.val / 1e5) P := by
  have h : ∀ P : ℝ, P ∈ Icc (5e6 : ℝ) 1e7 → ∃ r, bmEntry 300 P 300 1e5 { TPS.default with V := TS.ofVal 1 } exC { TPS.default with V := TS.ofVal 1 } = .ok r :=
    fun P hP => by
      obtain ⟨r, hr, -⟩ := ex_entry 300 P { TPS.default with V := TS.ofVal 1 } { TPS.default with V := TS.ofVal 1 } rfl (by linarith [hP.1])
      exact ⟨r, hr⟩
  have : Nonempty TPS := ⟨TPS.default⟩
  choose! r hr using h
  exact ⟨r, hr, C108_slope_refuted _ _ rfl zero_le_one r hr⟩

/-- **C108** is violated: dG/dT = -S fails somewhere between 300 and 301 K, although it holds for the properties that came in; the
increment of the entropy has the wrong sign. -/
theorem C108_entropy_refuted (ref : TPS) (hV : ref.V.val = 1) (tps r : ℝ → TPS)
    (hin : ∀ T ∈ Icc (300 : ℝ) 301, HasDerivAt (fun T => (tps T).G.val) (-(tps T).S.val) T)
    (hr : ∀ T ∈ Icc (300 : ℝ) 301, bmEntry T 1e7 300 1e5 ref exC (tps T) = .ok (r T)) :
    ¬ ∀ T ∈ Icc (300 : ℝ) 301, HasDerivAt (fun T => (r T).G.val) (-(r T).S.val) T := by
  intro hd
  obtain ⟨u, c, hu1, hu2, hc, hvol⟩ := ex_vol (p := 1e7 * 1e-6) (by norm_num) (by norm_num)
  norm_num at hc
  have hvals : ∀ T ∈ Icc (300 : ℝ) 301, |(r T).G.val - (tps T).G.val - exVt T * c| ≤ 1e-8 ∧ (tps T).S.val < (r T).S.val := by
    intro T hT
    obtain ⟨r', h1, -, h3, h4⟩ := ex_entry T 1e7 ref (tps T) hV (by norm_num)
    rw [hr T hT] at h1
    cases h1
    have b0 := exVt_bounds (T := T) (by linarith [hT.1]) (by linarith [hT.2])
    have bp := exVt_bounds (T := T + 0.1) (by linarith [hT.1]) (by linarith [hT.2])
    have bm := exVt_bounds (T := T - 0.1) (by linarith [hT.1]) (by linarith [hT.2])
    have v0 := exV_bounds (T := T) (p := 1e7 * 1e-6) (by linarith [hT.1]) (by linarith [hT.2]) (by norm_num) (by norm_num)
    have e1 := Real.add_one_le_exp (-1 / 1000 * (1e7 * 1e-6 - 0.1))
    have e2 : Real.exp (-1 / 1000 * (1e7 * 1e-6 - 0.1)) ≤ 1 := Real.exp_le_one_iff.mpr (by norm_num)
    have hs : exVt T * Real.exp (-1 / 1000 * (1e7 * 1e-6 - 0.1)) ∈ Icc (0.97 * exVt T) (1.01 * exVt T) := by
      generalize Real.exp (-1 / 1000 * (1e7 * 1e-6 - 0.1)) = E at e1 e2 ⊢
      norm_num at e1
      exact ⟨by nlinarith, by nlinarith⟩
    have q0 := (hvol (exVt T) _ (by linarith) (by linarith) hs).2
    refine ⟨by rw [h3, add_sub_cancel_left]; exact q0, ?_⟩
    have r1 : exVt T * (1 + 1e-4) ≤ exVt (T + 0.1) := by
      unfold exVt
      rw [show 1e-3 * (T + 0.1 - 300) = 1e-3 * (T - 300) + 1e-4 by ring, Real.exp_add, ← mul_assoc]
      refine mul_le_mul_of_nonneg_left ?_ (by positivity)
      linarith [Real.add_one_le_exp (1e-4 : ℝ)]
    have r2 : exVt (T - 0.1) * (1 + 1e-4) ≤ exVt T := by
      unfold exVt
      rw [show 1e-3 * (T - 300) = 1e-3 * (T - 0.1 - 300) + 1e-4 by ring, Real.exp_add, ← mul_assoc]
      refine mul_le_mul_of_nonneg_left ?_ (by positivity)
      linarith [Real.add_one_le_exp (1e-4 : ℝ)]
    have e3 : Real.exp 1e-4 ≤ 1.001 := by
      have := exp_small (x := 1e-4) (y := 1e-4) le_rfl (by norm_num)
      linarith
    have r3 : exVt (T + 0.1) ≤ exVt T * 1.001 := by
      unfold exVt
      rw [show 1e-3 * (T + 0.1 - 300) = 1e-3 * (T - 300) + 1e-4 by ring, Real.exp_add, ← mul_assoc]
      exact mul_le_mul_of_nonneg_left e3 (by positivity)
    have r4 : exVt T ≤ exVt (T - 0.1) * 1.001 := by
      unfold exVt
      rw [show 1e-3 * (T - 300) = 1e-3 * (T - 0.1 - 300) + 1e-4 by ring, Real.exp_add, ← mul_assoc]
      exact mul_le_mul_of_nonneg_left e3 (by positivity)
    have qp := (hvol (exVt (T + 0.1)) (exV T (1e7 * 1e-6)) (by linarith) (by linarith) ⟨by nlinarith [v0.1], by nlinarith [v0.2]⟩).2
    have qm := (hvol (exVt (T - 0.1)) (exV T (1e7 * 1e-6)) (by linarith) (by linarith) ⟨by nlinarith [v0.1], by nlinarith [v0.2]⟩).2
    rw [h4]
    rw [abs_le] at qp qm
    have : 0 < (exVt (T + 0.1) - exVt (T - 0.1)) * c - 2e-8 := by nlinarith
    have := qp.1
    have := qm.2
    rw [lt_add_iff_pos_right]
    refine div_pos ?_ (by norm_num)
    nlinarith
  obtain ⟨x, hx, hx2⟩ := exists_hasDerivAt_eq_slope (fun T => (r T).G.val - (tps T).G.val) (fun T => -(r T).S.val - -(tps T).S.val)
    (show (300 : ℝ) < 301 by norm_num)
    (fun x hx => ((hd x hx).fun_sub (hin x hx)).continuousAt.continuousWithinAt)
    (fun x hx => (hd x (Ioo_subset_Icc_self hx)).fun_sub (hin x (Ioo_subset_Icc_self hx)))
  have s1 := (hvals x (Ioo_subset_Icc_self hx)).2
  have g1 := (hvals 301 (by norm_num)).1
  have g0 := (hvals 300 (by norm_num)).1
  rw [abs_le] at g1 g0
  have hv0 : exVt 300 = 10 := by unfold exVt; norm_num
  have hv1 : 10.01 ≤ exVt 301 := by
    unfold exVt
    have := Real.add_one_le_exp (1e-3 * (301 - 300) : ℝ)
    norm_num at this ⊢
    linarith
  rw [hv0] at g0
  rw [show (301 - 300 : ℝ) = 1 by norm_num, div_one] at hx2
  nlinarith [g1.1, g0.2]

/-- The hypotheses hold for a solid with S = 50 and G = -50 (T - 300) at 1 bar. -/
example : ∃ r : ℝ → TPS, (∀ T ∈ Icc (300 : ℝ) 301, bmEntry T 1e7 300 1e5 { TPS.default with V := TS.ofVal 1 } exC
      { TPS.default with G := TS.ofVal (-50 * (T - 300)), S := TS.ofVal 50 } = .ok (r T)) ∧
    ¬ ∀ T ∈ Icc (300 : ℝ) 301, HasDerivAt (fun T => (r T).G.val) (-(r T).S.val) T := by
  have h : ∀ T : ℝ, ∃ r, bmEntry T 1e7 300 1e5 { TPS.default with V := TS.ofVal 1 } exC
      { TPS.default with G := TS.ofVal (-50 * (T - 300)), S := TS.ofVal 50 } = .ok r := fun T => by
    obtain ⟨r, hr, -⟩ := ex_entry T 1e7 { TPS.default with V := TS.ofVal 1 } { TPS.default with G := TS.ofVal (-50 * (T - 300)), S := TS.ofVal 50 } rfl (by norm_num)
    exact ⟨r, hr⟩
  choose r hr using h
  refine ⟨r, fun T _ => hr T, C108_entropy_refuted _ rfl (fun T => { TPS.default with G := TS.ofVal (-50 * (T - 300)), S := TS.ofVal 50 }) r ?_ (fun T _ => hr T)⟩
  intro T _
  simp only [TS.val_ofVal]
  exact (((hasDerivAt_id' T).sub_const 300).const_mul (-50)).congr_deriv (by ring)

end ThermoFun.BM

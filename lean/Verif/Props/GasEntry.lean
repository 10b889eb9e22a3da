import Verif.Props.GasT
import Verif.Props.SubstanceP
import Mathlib.Analysis.Complex.ExponentialBounds

/-!
The properties of gases returned by the entry points of the cubic equations of state.
-/

namespace ThermoFun.Gas

open Topology Filter

lemma phi_pos {m : Eos} {Tk Pb : ℝ} {k : Nat → ℝ} {f : Fug} (h : fugacityPT m Tk Pb k = some f) : 0 < f.phi := by
  unfold fugacityPT at h
  cases m <;> dsimp only at h
  · unfold prPure at h
    rw [Option.map_eq_some_iff] at h
    obtain ⟨r, -, rfl⟩ := h
    exact Real.exp_pos _
  · unfold srkPure at h
    rw [Option.map_eq_some_iff] at h
    obtain ⟨r, -, rfl⟩ := h
    exact Real.exp_pos _
  · unfold prPure at h
    rw [Option.map_eq_some_iff] at h
    obtain ⟨r, -, rfl⟩ := h
    exact Real.exp_pos _

lemma calcPhi_pos {m : Eos} {Tmin Tk Pb : ℝ} {k : Nat → ℝ} {f : Fug} (h : calcFugPure m Tmin Tk Pb k = some f) : 0 < f.phi := by
  unfold calcFugPure at h
  split_ifs at h
  · exact phi_pos h
  · cases h; exact one_pos

lemma increment_vals {T P : ℝ} {f : Fug} {h s : ℝ} {tps : TPS} (hP : P ≠ 0) (hf : 0 < f.phi) :
    let r := increment (TS.temperature T) (pbar P) f h s tps
    r.G.val = tps.G.val ∧ r.H.val = tps.H.val + h ∧ r.S.val = tps.S.val + s ∧ r.V.val = f.v ∧ r.Cp = tps.Cp ∧ r.U = tps.U ∧ r.A = tps.A := by
  refine ⟨?_, rfl, rfl, rfl, rfl, rfl, rfl⟩
  unfold increment
  dsimp only
  simp only [TS.val_subAssign, TS.val_addAssign, TS.op_val_mul, TS.op_val_mulR, TS.op_val_mulL, TS.val_temperature, TS.val_log,
    TS.op_val_div, val_pbar]
  rw [mul_div_cancel_right₀ _ (by positivity)]
  ring

/-- What `gasProps` does, with the pressure not zero. -/
lemma gasProps_eq {m : Eos} {T P lo : ℝ} {rest : List ℝ} {tail : List (List ℝ)} {crit : List ℝ} {tps : TPS} (hP : P ≠ 0) :
    gasProps m (TS.temperature T) (pbar P) ((lo :: rest) :: tail) crit tps = if crit.length < 7 then .ub else
      .ok (match calcFugPure m lo T (P / 1e5) (fun i => crit.getD i 0) with
        | none => none
        | some f => match f.h, f.s with
          | some h, some s => some (increment (TS.temperature T) (pbar P) f h s tps)
          | _, _ => none) := by
  have e : (pbar P).val ≠ 0 := by rw [val_pbar]; exact div_ne_zero hP (by norm_num)
  unfold gasProps
  dsimp only
  simp only [if_neg e]
  simp only [val_pbar, TS.val_temperature]
  rfl

lemma entry_of {m : Eos} {T P lo Pr h s : ℝ} {rest : List ℝ} {tail : List (List ℝ)} {crit : List ℝ} {tps : TPS} {f : Fug}
    (hl : 7 ≤ crit.length) (hP : P ≠ 0) (hf : calcFugPure m lo T (P / 1e5) (fun i => crit.getD i 0) = some f) (hh : f.h = some h)
    (hs : f.s = some s) :
    gasEntry m T P ((lo :: rest) :: tail) crit Pr tps false = .ok (some (increment (TS.temperature T) (pbar P) f h s tps)) ∧
    gasEntry m T P ((lo :: rest) :: tail) crit Pr tps true
      = .ok (some (applyPressure (increment (TS.temperature T) (pbar P) f h s tps) (TS.temperature T) (pbar P) Pr)) := by
  have e : gasProps m (TS.temperature T) (pbar P) ((lo :: rest) :: tail) crit tps
      = .ok (some (increment (TS.temperature T) (pbar P) f h s tps)) := by
    rw [gasProps_eq hP, if_neg (by omega), hf]
    dsimp only
    rw [hh, hs]
  unfold gasEntry
  rw [e]
  exact ⟨rfl, rfl⟩

/-! ### C104 -/

/-- **C104** (without pressure correction): the entry points add the residual enthalpy and entropy of the equation of state, set the volume, and
leave G, Cp, U and A as they were: the term RT ln φ is added to G and taken away again.
Missing from C104: see the refutations: the result is not consistent. -/
theorem C104_values_partial (m : Eos) (T P lo Pr : ℝ) (rest : List ℝ) (tail : List (List ℝ)) (crit : List ℝ) (tps r : TPS) (hP : P ≠ 0)
    (h : gasEntry m T P ((lo :: rest) :: tail) crit Pr tps false = .ok (some r)) :
    ∃ f hR sR, calcFugPure m lo T (P / 1e5) (fun i => crit.getD i 0) = some f ∧ f.h = some hR ∧ f.s = some sR ∧
      r.G.val = tps.G.val ∧ r.H.val = tps.H.val + hR ∧ r.S.val = tps.S.val + sR ∧ r.V.val = f.v ∧ r.Cp = tps.Cp ∧ r.U = tps.U ∧ r.A = tps.A := by
  unfold gasEntry at h
  rw [gasProps_eq hP] at h
  by_cases hl : crit.length < 7
  · rw [if_pos hl] at h
    simp at h
  rw [if_neg hl] at h
  rcases hf : calcFugPure m lo T (P / 1e5) (fun i => crit.getD i 0) with _ | f
  · rw [hf] at h
    simp at h
  rcases hh : f.h with _ | hR
  · rw [hf] at h
    simp only [hh] at h
    simp at h
  rcases hs : f.s with _ | sR
  · rw [hf] at h
    simp only [hh, hs] at h
    simp at h
  rw [hf] at h
  simp only [hh, hs] at h
  cases h
  exact ⟨f, hR, sR, rfl, hh, hs, increment_vals hP (calcPhi_pos hf)⟩

/-- **C104** (pressure 0): without pressure correction, pressure 0 is taken for 1 Pa, and the results are those at 1 Pa, derivatives included.
Missing from C104: see `C104_values_partial`. -/
theorem C104_zero_partial (m : Eos) (T Pr : ℝ) (intervals : List (List ℝ)) (crit : List ℝ) (tps : TPS) :
    gasEntry m T 0 intervals crit Pr tps false = gasEntry m T 1 intervals crit Pr tps false := by
  have e0 : (pbar 0).val = 0 := by rw [val_pbar]; norm_num
  have e1 : (pbar 1).val ≠ 0 := by rw [val_pbar]; norm_num
  have e : TS.addAssignD (pbar 0) 1e-5 = pbar 1 := by
    simp only [TS.addAssignD, pbar, TS.divAssignD, TS.pressure, TS.mulAssignD, TS.mk5]
    norm_num
  unfold gasEntry gasProps
  dsimp only
  rw [if_pos e0, if_neg e1, e]
  rfl

/-- Argon-like constants. -/
noncomputable def exAr : List ℝ := [150, 50, 0, 0, 0, 0, 0]
/-- The pressure in bar at which the SRK volume at 216 K is 2b. -/
noncomputable def exP : ℝ := 1039672595 / 2345778

/-- B at this state. -/
noncomputable def exB : ℝ := 207934519 / 389880000

lemma exAr_ab : (srkAB 216 150 50 0).a = 0.904 ^ 2 * (0.42747 * Rgas ^ 2 * 150 ^ 2 / 50) ∧ (srkAB 216 150 50 0).b = 0.08664 * Rgas * 150 / 50 ∧
    (srkAB 216 150 50 0).da = 2 * (0.42747 * Rgas ^ 2 * 150 ^ 2 / 50) * (0.904 * (-0.24 / 180)) ∧
    0 < (srkAB 216 150 50 0).d2a := by
  have hR := Rpos
  have hs : Real.sqrt (216 / 150 : ℝ) = 1.2 := sqrt_ex 1.2 (by norm_num) (by norm_num)
  unfold srkAB
  dsimp only
  rw [hs]
  refine ⟨by norm_num, by norm_num, by norm_num, ?_⟩
  have : (0 : ℝ) < (216 / 150) ^ (1.5 : ℝ) := by positivity
  have h1 : 0 < 0.25 * (0.48 + 1.574 * 0 - 0.176 * 0 ^ 2 : ℝ) / ((216 / 150) ^ (1.5 : ℝ) * 150 ^ 2) := by
    apply div_pos (by norm_num) (by positivity)
  have h2 : (0 : ℝ) < 1 + (0.48 + 1.574 * 0 - 0.176 * 0 ^ 2) * (1 - 1.2) := by norm_num
  have h3 := mul_pos h2 h1
  have h4 : 0 ≤ (-0.5 * (0.48 + 1.574 * 0 - 0.176 * 0 ^ 2 : ℝ) / (1.2 * 150)) * (-0.5 * (0.48 + 1.574 * 0 - 0.176 * 0 ^ 2) / (1.2 * 150)) :=
    mul_self_nonneg _
  have h5 : 0 < 0.42747 * Rgas ^ 2 * 150 ^ 2 / 50 := by positivity
  exact mul_pos (by positivity) (by linarith)

lemma exAr_AB : Ax (srkAB 216 150 50 0).a 216 exP = 181945481 / 64980000 * exB ∧ Bx (srkAB 216 150 50 0).b 216 exP = exB := by
  have hR := Rpos
  obtain ⟨h1, h2, -⟩ := exAr_ab
  rw [h1, h2]
  unfold Ax Bx exP exB
  constructor <;> field_simp <;> norm_num

lemma exAr_single : SrkSingle (srkAB 216 150 50 0).a (srkAB 216 150 50 0).b 216 exP := by
  unfold SrkSingle
  dsimp only
  rw [mul_pow]
  obtain ⟨h1, h2⟩ := exAr_AB
  unfold Ax at h1
  unfold Bx at h2
  rw [h1, h2]
  unfold discr cubic exB
  norm_num

lemma exAr_z : srkZ (srkAB 216 150 50 0).a (srkAB 216 150 50 0).b 216 exP = 2 * exB := by
  have h := exAr_single.one
  have hz := oneRoot_root h.1.le h.2
  refine root_unique h.1 hz ?_
  rw [exAr_AB.1, exAr_AB.2]
  unfold exB
  norm_num

lemma exAr_v : srkZ (srkAB 216 150 50 0).a (srkAB 216 150 50 0).b 216 exP * Rgas * 216 / exP = 2 * (srkAB 216 150 50 0).b := by
  have hR := Rpos
  have hP : 0 < exP := by unfold exP; norm_num
  rw [exAr_z, ← exAr_AB.2]
  unfold Bx
  field_simp

lemma exB_val : 0.533 < exB ∧ exB < 0.534 := by unfold exB; norm_num
lemma exP_val : 443 < exP ∧ exP < 444 := by unfold exP; norm_num

lemma exAr_fug : ∃ f h s, fugacityPT .SRK 216 exP (fun i => exAr.getD i 0) = some f ∧ f.h = some h ∧ f.s = some s ∧ h - 216 * s < 0 := by
  have hR := Rpos
  have hP : 0 < exP := by linarith [exP_val.1]
  have hb : 0 < (srkAB 216 150 50 0).b := by rw [exAr_ab.2.1]; positivity
  have r := srk_rootOf (T := 216) (by norm_num) hP (srk_a (Tc := 150) (Pc := 50) (omg := 0) (by norm_num) 216) hb exAr_single.one
  have hg := srkProps_g (l := srkLnf (Ax (srkAB 216 150 50 0).a 216 exP) (Bx (srkAB 216 150 50 0).b 216 exP)
    (srkZ (srkAB 216 150 50 0).a (srkAB 216 150 50 0).b 216 exP)) (p := srkAB 216 150 50 0) (by norm_num) hP hb r
  refine ⟨_, _, _, srkPure_one (p := srkAB 216 150 50 0) (by norm_num) hP (srk_a (by norm_num) 216) hb exAr_single.one, rfl, rfl, ?_⟩
  change (srkProps 216 exP (srkAB 216 150 50 0) (Bx (srkAB 216 150 50 0).b 216 exP)
    (srkZ (srkAB 216 150 50 0).a (srkAB 216 150 50 0).b 216 exP, srkLnf (Ax (srkAB 216 150 50 0).a 216 exP) (Bx (srkAB 216 150 50 0).b 216 exP)
    (srkZ (srkAB 216 150 50 0).a (srkAB 216 150 50 0).b 216 exP))).g < 0
  rw [hg, exAr_v]
  have hB := exAr_AB.2
  have hA := exAr_AB.1
  generalize srkAB 216 150 50 0 = p at *
  unfold gres
  have e1 : exP * (2 * p.b - p.b) / (Rgas * 216) = exB := by rw [← hB]; unfold Bx; ring
  have e2 : exP * (2 * p.b) = 2 * exB * (Rgas * 216) := by rw [← hB]; unfold Bx; field_simp
  have e3 : p.a / (p.b * (1 - 0)) = 181945481 / 64980000 * (Rgas * 216) := by
    have : Ax p.a 216 exP = p.a / p.b / (Rgas * 216) * Bx p.b 216 exP := by unfold Ax Bx; field_simp
    rw [hA, hB] at this
    have h0 : exB ≠ 0 := by linarith [exB_val.1]
    have h1 := mul_right_cancel₀ h0 this
    rw [h1]; field_simp; ring
  have e4 : (2 * p.b + 1 * p.b) / (2 * p.b + 0 * p.b) = 3 / 2 := by field_simp; ring
  rw [e1, e2, e3, e4]
  have l1 : 1 / 3 ≤ Real.log (3 / 2) := by
    have := Real.one_sub_inv_le_log_of_pos (x := 3 / 2) (by norm_num)
    norm_num at this ⊢; linarith
  have l2 : -(7 / 10) ≤ Real.log exB := by
    have h1 : Real.log (1 / 2) ≤ Real.log exB := Real.log_le_log (by norm_num) (by linarith [exB_val.1])
    rw [one_div, Real.log_inv] at h1
    have := Real.log_two_lt_d9
    norm_num at this ⊢; linarith
  have := exB_val
  have hRT : 0 < Rgas * 216 := by positivity
  have : 2 * exB - 1 - Real.log exB - 181945481 / 64980000 * Real.log (3 / 2) < 0 := by nlinarith
  nlinarith

lemma exAr_calc {Pb : ℝ} (h : 1e-5 ≤ Pb) (h2 : Pb < 1e5) {T : ℝ} (hT : 100 ≤ T) (hT2 : T < 1e4) (k : Nat → ℝ) :
    calcFugPure .SRK 100 T Pb k = fugacityPT .SRK T Pb k := by
  unfold calcFugPure
  rw [if_pos ⟨hT, hT2, h, h2⟩]

/-- **C104** is violated: whatever consistent properties come in, the properties going out do not satisfy G = H - TS.  Witness: argon-like
critical constants, 216 K and 443 bar. -/
theorem C104_gibbs_refuted : ∃ f h s, ∀ (Pr : ℝ) (tps : TPS), tps.G.val = tps.H.val - 216 * tps.S.val →
    ∃ r, gasEntry .SRK 216 (exP * 1e5) [[100, 6000]] exAr Pr tps false = .ok (some r) ∧
      r.H.val = tps.H.val + h ∧ r.S.val = tps.S.val + s ∧ r.V.val = f ∧ r.G.val ≠ r.H.val - 216 * r.S.val := by
  obtain ⟨f, h, s, h1, h2, h3, h4⟩ := exAr_fug
  have := exP_val
  refine ⟨f.v, h, s, fun Pr tps hG => ?_⟩
  have hc : calcFugPure .SRK 100 216 (exP * 1e5 / 1e5) (fun i => exAr.getD i 0) = some f := by
    rw [mul_div_cancel_right₀ _ (by norm_num), exAr_calc (by norm_num at *; linarith) (by norm_num at *; linarith) (by norm_num) (by norm_num), h1]
  have hne : exP * 1e5 ≠ 0 := by norm_num; linarith
  refine ⟨_, (entry_of (by simp [exAr]) hne hc h2 h3).1, rfl, rfl, rfl, ?_⟩
  obtain ⟨v1, v2, v3, -⟩ := increment_vals (T := 216) (h := h) (s := s) (tps := tps) hne (phi_pos h1)
  rw [v1, v2, v3, hG]
  intro h'
  linarith

lemma exAr_cp : 0 < cres Rgas 1 0 216 (srkAB 216 150 50 0).a (srkAB 216 150 50 0).da (srkAB 216 150 50 0).d2a (srkAB 216 150 50 0).b
    (2 * (srkAB 216 150 50 0).b) := by
  have hR := Rpos
  obtain ⟨h1, h2, h3, h4⟩ := exAr_ab
  have hb : 0 < (srkAB 216 150 50 0).b := by rw [h2]; positivity
  unfold cres
  have l1 : 0 < Real.log ((2 * (srkAB 216 150 50 0).b + 1 * (srkAB 216 150 50 0).b) / (2 * (srkAB 216 150 50 0).b + 0 * (srkAB 216 150 50 0).b)) := by
    apply Real.log_pos
    rw [lt_div_iff₀ (by linarith)]
    linarith
  have t1 : 0 < 216 * (srkAB 216 150 50 0).d2a / ((srkAB 216 150 50 0).b * (1 - 0))
      * Real.log ((2 * (srkAB 216 150 50 0).b + 1 * (srkAB 216 150 50 0).b) / (2 * (srkAB 216 150 50 0).b + 0 * (srkAB 216 150 50 0).b)) := by
    apply mul_pos (div_pos (by linarith) (by linarith)) l1
  have t2 : 216 * (Rgas / (2 * (srkAB 216 150 50 0).b - (srkAB 216 150 50 0).b) - (srkAB 216 150 50 0).da
        / ((2 * (srkAB 216 150 50 0).b + 1 * (srkAB 216 150 50 0).b) * (2 * (srkAB 216 150 50 0).b + 0 * (srkAB 216 150 50 0).b))) ^ 2
      / (-Rgas * 216 / (2 * (srkAB 216 150 50 0).b - (srkAB 216 150 50 0).b) ^ 2 + (srkAB 216 150 50 0).a
        * (2 * (2 * (srkAB 216 150 50 0).b) + (1 + 0) * (srkAB 216 150 50 0).b)
        / ((2 * (srkAB 216 150 50 0).b + 1 * (srkAB 216 150 50 0).b) * (2 * (srkAB 216 150 50 0).b + 0 * (srkAB 216 150 50 0).b)) ^ 2)
      < -Rgas := by
    rw [h1, h2, h3]
    have e1 : Rgas / (2 * (0.08664 * Rgas * 150 / 50) - 0.08664 * Rgas * 150 / 50) - 2 * (0.42747 * Rgas ^ 2 * 150 ^ 2 / 50) * (0.904 * (-0.24 / 180))
        / ((2 * (0.08664 * Rgas * 150 / 50) + 1 * (0.08664 * Rgas * 150 / 50)) * (2 * (0.08664 * Rgas * 150 / 50) + 0 * (0.08664 * Rgas * 150 / 50)))
        = 1 / 0.25992 + 2 * (0.42747 * 150 ^ 2 / 50) * (0.904 * (0.24 / 180)) / (6 * 0.25992 ^ 2) := by
      field_simp; norm_num
    have e2 : -Rgas * 216 / (2 * (0.08664 * Rgas * 150 / 50) - 0.08664 * Rgas * 150 / 50) ^ 2 + 0.904 ^ 2 * (0.42747 * Rgas ^ 2 * 150 ^ 2 / 50)
        * (2 * (2 * (0.08664 * Rgas * 150 / 50)) + (1 + 0) * (0.08664 * Rgas * 150 / 50))
        / ((2 * (0.08664 * Rgas * 150 / 50) + 1 * (0.08664 * Rgas * 150 / 50)) * (2 * (0.08664 * Rgas * 150 / 50) + 0 * (0.08664 * Rgas * 150 / 50))) ^ 2
        = -((216 / 0.25992 ^ 2 - 0.904 ^ 2 * (0.42747 * 150 ^ 2 / 50) * 5 / (36 * 0.25992 ^ 3)) / Rgas) := by
      field_simp; norm_num
    rw [e1, e2, div_neg, div_div_eq_mul_div, neg_lt_neg_iff, lt_div_iff₀ (by norm_num)]
    have : Rgas * (216 / 0.25992 ^ 2 - 0.904 ^ 2 * (0.42747 * 150 ^ 2 / 50) * 5 / (36 * 0.25992 ^ 3))
      < Rgas * (216 * (1 / 0.25992 + 2 * (0.42747 * 150 ^ 2 / 50) * (0.904 * (0.24 / 180)) / (6 * 0.25992 ^ 2)) ^ 2) := by
      apply mul_lt_mul_of_pos_left _ hR
      norm_num
    linarith
  linarith

example : ∃ r f, gasEntry .SRK 216 (exP * 1e5) [[100, 6000]] exAr 1e5 TPS.default false = .ok (some r) ∧
    calcFugPure .SRK 100 216 (exP * 1e5 / 1e5) (fun i => exAr.getD i 0) = some f ∧ r.V.val = f.v := by
  obtain ⟨_, _, _, h⟩ := C104_gibbs_refuted
  have hne : exP * 1e5 ≠ 0 := by have := exP_val; norm_num; linarith
  obtain ⟨r, hr, -⟩ := h 1e5 TPS.default (by simp [TPS.default, TS.default])
  obtain ⟨f, -, -, h1, -, -, -, -, -, h2, -⟩ := C104_values_partial .SRK 216 (exP * 1e5) 100 1e5 [6000] [] exAr TPS.default r hne hr
  exact ⟨r, f, hr, h1, h2⟩

/-- **C104** is violated: the heat capacity is left as it was although the enthalpy gets a residual part that depends on temperature.  For any
incoming properties with Cp = dH/dT, the outgoing ones have Cp ≠ dH/dT. -/
theorem C104_heat_refuted (Pr : ℝ) (tps : ℝ → TPS) (hC : HasDerivAt (fun t => (tps t).H.val) (tps 216).Cp.val 216) :
    ∃ r : ℝ → TPS, ∃ d, (∀ᶠ t in 𝓝 216, gasEntry .SRK t (exP * 1e5) [[100, 6000]] exAr Pr (tps t) false = .ok (some (r t))) ∧
      HasDerivAt (fun t => (r t).H.val) d 216 ∧ (r 216).Cp.val < d := by
  have hR := Rpos
  have hPv := exP_val
  have hP : 0 < exP := by linarith
  have hne : exP * 1e5 ≠ 0 := by norm_num; linarith
  have hb : 0 < (srkAB 216 150 50 0).b := by rw [exAr_ab.2.1]; positivity
  have ok := srk_ok (T := 216) (k := fun i => exAr.getD i 0) (by norm_num) hP (by norm_num [exAr]) (by norm_num [exAr]) exAr_single
  obtain ⟨f, h, ev, hd⟩ := ok.2
  have hS : ∀ t P : ℝ, ∀ k : Nat → ℝ, ∀ f, fugacityPT .SRK t P k = some f → ∃ s, f.s = some s := by
    intro t P k f hf
    unfold fugacityPT srkPure at hf
    dsimp only at hf
    rw [Option.map_eq_some_iff] at hf
    obtain ⟨r, -, rfl⟩ := hf
    exact ⟨_, rfl⟩
  have hcp : (f 216).cp = cres Rgas 1 0 216 (srkAB 216 150 50 0).a (srkAB 216 150 50 0).da (srkAB 216 150 50 0).d2a (srkAB 216 150 50 0).b
      (2 * (srkAB 216 150 50 0).b) := by
    have h1 := ev.self_of_nhds.1
    have h2 := srkPure_one (p := srkAB 216 150 50 0) (T := 216) (P := exP) (by norm_num) hP (srk_a (by norm_num) 216) hb exAr_single.one
    have h3 : some (f 216) = some _ := h1.symm.trans h2
    have r := srk_rootOf (T := 216) (by norm_num) hP (srk_a (Tc := 150) (Pc := 50) (omg := 0) (by norm_num) 216) hb exAr_single.one
    rw [Option.some.inj h3, srkProps_cp (by norm_num) hP r, exAr_v]
  classical
  refine ⟨fun t => increment (TS.temperature t) (pbar (exP * 1e5)) (f t) (h t) ((f t).s.getD 0) (tps t), _, ?_, hC.fun_add hd, ?_⟩
  · have e1 : ∀ᶠ t in 𝓝 (216 : ℝ), 100 < t := lt_mem_nhds (by norm_num)
    have e2 : ∀ᶠ t in 𝓝 (216 : ℝ), t < 1e4 := gt_mem_nhds (by norm_num)
    filter_upwards [ev, e1, e2] with t ht h1 h2
    obtain ⟨s, hs⟩ := hS _ _ _ _ ht.1
    have hc : calcFugPure .SRK 100 t (exP * 1e5 / 1e5) (fun i => exAr.getD i 0) = some (f t) := by
      rw [mul_div_cancel_right₀ _ (by norm_num), exAr_calc (by norm_num at *; linarith) (by norm_num at *; linarith) h1.le h2]
      exact ht.1
    have := (entry_of (Pr := Pr) (rest := [6000]) (tail := []) (tps := tps t) (by simp [exAr]) hne hc ht.2 hs).1
    rw [this, hs]
    rfl
  · change (tps 216).Cp.val < (tps 216).Cp.val + (f 216).cp
    rw [hcp]
    linarith [exAr_cp]

example : ∃ r : ℝ → TPS, ∃ d,
    (∀ᶠ t in 𝓝 216, gasEntry .SRK t (exP * 1e5) [[100, 6000]] exAr 1e5 { TPS.default with H := TS.assign TS.default (20 * t), Cp := TS.assign TS.default 20 } false
      = .ok (some (r t))) ∧ HasDerivAt (fun t => (r t).H.val) d 216 ∧ (r 216).Cp.val < d :=
  C104_heat_refuted 1e5 (fun t => { TPS.default with H := TS.assign TS.default (20 * t), Cp := TS.assign TS.default 20 })
    (((hasDerivAt_id' (216 : ℝ)).const_mul 20).congr_deriv (mul_one _))

/-- The volume depends on pressure. -/
lemma srkV_P {T P : ℝ} {p : AB} (hT : 0 < T) (hP : 0 < P) (ha : 0 ≤ p.a) (hb : 0 < p.b) (h : SrkOne p.a p.b T P) :
    ∃ v', HasDerivAt (fun x => srkZ p.a p.b T x * Rgas * T / x) v' P ∧ v' ≠ 0 := by
  have hR := Rpos
  have ev : ∀ᶠ x in 𝓝 P, 0 < x ∧ SrkOne p.a p.b T x :=
    (lt_mem_nhds hP).and (SrkOne.eventually (a := fun _ => p.a) (b := fun _ => p.b) (t := fun _ => T) (p := fun x => x)
      continuousAt_const continuousAt_const continuousAt_const continuousAt_id hT.ne' h)
  have hv := (srkV_diff (a := fun _ => p.a) (b := fun _ => p.b) (t := fun _ => T) (p := fun x => x) (x := P)
    (by fun_prop) (by fun_prop) (by fun_prop) (by fun_prop) hT.ne' hP.ne' h).hasDerivAt
  refine ⟨_, hv, ?_⟩
  intro h0
  rw [h0] at hv
  have r := srk_rootOf hT hP ha hb h
  have d1 := ((hasDerivAt_const P (Rgas * T)).fun_div (hv.sub_const p.b) (by have := r.vb; exact (sub_pos.mpr this).ne')).fun_sub
    ((hasDerivAt_const P p.a).fun_div ((hv.add_const (1 * p.b)).fun_mul (hv.add_const (0 * p.b))) (mul_pos r.vU r.vW).ne')
  have d2 := d1.congr_of_eventuallyEq (f₁ := fun x => x) (ev.mono fun x hx => (srk_rootOf hT hx.1 ha hb hx.2).eos)
  have := d2.unique (hasDerivAt_id' P)
  simp at this

/-- **C104** is violated: neither with nor without the pressure correction is the volume the pressure derivative of G.  Without it G does not
depend on pressure; with it G gets V(P - Pref), with the volume at P, instead of the integral of V. -/
theorem C104_volume_refuted (T Pb lo Pr : ℝ) (crit : List ℝ) (tps : TPS) (hl : crit.length = 7) (hlo : lo < T) (hT : 0 < T) (hT2 : T < 1e4)
    (hP : 1e-5 < Pb) (hP2 : Pb < 1e5) (hTc : 0 < crit.getD 0 0) (hPc : 0 < crit.getD 1 0) (hPr : Pr ≠ Pb * 1e5)
    (h : SrkSingle (srkAB T (crit.getD 0 0) (crit.getD 1 0) (crit.getD 2 0)).a (srkAB T (crit.getD 0 0) (crit.getD 1 0) (crit.getD 2 0)).b T Pb) :
    (∃ r : ℝ → TPS, ∃ d, (∀ᶠ x in 𝓝 (Pb * 1e5), gasEntry .SRK T x [[lo]] crit Pr tps false = .ok (some (r x))) ∧
      HasDerivAt (fun x => (r x).G.val) d (Pb * 1e5) ∧ d ≠ (r (Pb * 1e5)).V.val / 1e5) ∧
    (∃ r : ℝ → TPS, ∃ d, (∀ᶠ x in 𝓝 (Pb * 1e5), gasEntry .SRK T x [[lo]] crit Pr tps true = .ok (some (r x))) ∧
      HasDerivAt (fun x => (r x).G.val) d (Pb * 1e5) ∧ d ≠ (r (Pb * 1e5)).V.val / 1e5) := by
  have hR := Rpos
  have hP0 : 0 < Pb := lt_trans (by norm_num) hP
  have hPa : Pb * 1e5 / 1e5 = Pb := mul_div_cancel_right₀ _ (by norm_num)
  set p := srkAB T (crit.getD 0 0) (crit.getD 1 0) (crit.getD 2 0) with hp
  have ha : 0 ≤ p.a := srk_a hPc T
  have hb : 0 < p.b := by rw [hp, srk_b]; positivity
  have cdiv : ContinuousAt (fun x : ℝ => x / 1e5) (Pb * 1e5) := by fun_prop
  have ev : ∀ᶠ x in 𝓝 (Pb * 1e5), x ≠ 0 ∧ 1e-5 < x / 1e5 ∧ x / 1e5 < 1e5 ∧ SrkOne p.a p.b T (x / 1e5) := by
    have e1 : ∀ᶠ x in 𝓝 (Pb * 1e5), x ≠ 0 := isOpen_ne.mem_nhds (mul_ne_zero hP0.ne' (by norm_num))
    have e2 : ∀ᶠ x in 𝓝 (Pb * 1e5), 1e-5 < x / 1e5 := ContinuousAt.eventually_lt continuousAt_const cdiv (by rw [hPa]; exact hP)
    have e3 : ∀ᶠ x in 𝓝 (Pb * 1e5), x / 1e5 < 1e5 := ContinuousAt.eventually_lt cdiv continuousAt_const (by rw [hPa]; exact hP2)
    have e4 := SrkOne.eventually (a := fun _ => p.a) (b := fun _ => p.b) (t := fun _ => T) (p := fun x => x / 1e5) (x := Pb * 1e5)
      continuousAt_const continuousAt_const continuousAt_const cdiv hT.ne' (by rw [hPa]; exact h.one)
    filter_upwards [e1, e2, e3, e4] with x h1 h2 h3 h4 using ⟨h1, h2, h3, h4⟩
  obtain ⟨v', hv, hv0⟩ := srkV_P hT hP0 ha hb h.one
  set z := fun x => srkZ p.a p.b T x with hz
  set f : ℝ → Fug := fun x => srkProps T x p (Bx p.b T x) (srkZ p.a p.b T x, srkLnf (Ax p.a T x) (Bx p.b T x) (srkZ p.a p.b T x)) with hf
  have hfv : ∀ x, (f x).v = srkZ p.a p.b T x * Rgas * T / x := fun _ => rfl
  have hent : ∀ᶠ x in 𝓝 (Pb * 1e5), ∃ hh ss, 0 < (f (x / 1e5)).phi ∧ x ≠ 0 ∧ (f (x / 1e5)).h = some hh ∧ (f (x / 1e5)).s = some ss ∧
      gasEntry .SRK T x [[lo]] crit Pr tps false = .ok (some (increment (TS.temperature T) (pbar x) (f (x / 1e5)) hh ss tps)) ∧
      gasEntry .SRK T x [[lo]] crit Pr tps true = .ok (some (applyPressure (increment (TS.temperature T) (pbar x) (f (x / 1e5)) hh ss tps)
        (TS.temperature T) (pbar x) Pr)) := by
    filter_upwards [ev] with x hx
    obtain ⟨h1, h2, h3, h4⟩ := hx
    have hc : calcFugPure .SRK lo T (x / 1e5) (fun i => crit.getD i 0) = some (f (x / 1e5)) := by
      unfold calcFugPure
      rw [if_pos ⟨hlo.le, hT2, h2.le, h3⟩]
      exact srkPure_one hT (lt_trans (by norm_num) h2) ha hb h4
    exact ⟨_, _, Real.exp_pos _, h1, rfl, rfl, entry_of (Pr := Pr) (rest := []) (tail := []) (tps := tps) (by omega) h1 hc rfl rfl⟩
  have hvpos : 0 < (f Pb).v := by
    have := (srk_rootOf hT hP0 ha hb h.one).vb
    rw [hfv]; linarith
  constructor
  · refine ⟨fun x => increment (TS.temperature T) (pbar x) (f (x / 1e5)) ((f (x / 1e5)).h.getD 0) ((f (x / 1e5)).s.getD 0) tps, 0, ?_, ?_, ?_⟩
    · filter_upwards [hent] with x hx
      obtain ⟨hh, ss, -, -, e1, e2, e3, -⟩ := hx
      rw [e3, e1, e2]; rfl
    · refine (hasDerivAt_const (Pb * 1e5) tps.G.val).congr_of_eventuallyEq ?_
      filter_upwards [hent] with x hx
      obtain ⟨hh, ss, h1, h2, -⟩ := hx
      exact (increment_vals h2 h1).1
    · change (0 : ℝ) ≠ (f (Pb * 1e5 / 1e5)).v / 1e5
      rw [hPa]
      have : 0 < (f Pb).v / 1e5 := by positivity
      exact this.ne
  · refine ⟨fun x => applyPressure (increment (TS.temperature T) (pbar x) (f (x / 1e5)) ((f (x / 1e5)).h.getD 0) ((f (x / 1e5)).s.getD 0) tps)
      (TS.temperature T) (pbar x) Pr, (v' / 1e5) * (Pb - Pr / 1e5) + (f Pb).v / 1e5, ?_, ?_, ?_⟩
    · filter_upwards [hent] with x hx
      obtain ⟨hh, ss, -, -, e1, e2, -, e4⟩ := hx
      rw [e4, e1, e2]; rfl
    · have dv : HasDerivAt (fun x => (f (x / 1e5)).v) (v' / 1e5) (Pb * 1e5) := by
        have hin : HasDerivAt (fun x : ℝ => x / 1e5) (1 / 1e5) (Pb * 1e5) := (hasDerivAt_id' _).div_const _
        have hv2 : HasDerivAt (fun x => (f x).v) v' (Pb * 1e5 / 1e5) := by rw [hPa]; exact hv
        have := hv2.comp (Pb * 1e5) hin
        rw [mul_one_div] at this
        exact this
      have dp : HasDerivAt (fun x : ℝ => x / 1e5 - Pr / 1e5) (1 / 1e5) (Pb * 1e5) := ((hasDerivAt_id' _).div_const _).sub_const _
      have d := ((dv.fun_mul dp).const_add tps.G.val)
      refine (d.congr_of_eventuallyEq ?_).congr_deriv ?_
      · filter_upwards [hent] with x hx
        obtain ⟨hh, ss, h1, h2, -⟩ := hx
        unfold applyPressure
        dsimp only
        rw [TS.val_addAssign, (increment_vals h2 h1).1, TS.op_val_mul, (increment_vals h2 h1).2.2.2.1, TS.op_val_subR, val_pbar]
      · rw [hPa]; ring
    · change _ ≠ (f (Pb * 1e5 / 1e5)).v / 1e5
      rw [hPa]
      intro h'
      have : v' / 1e5 * (Pb - Pr / 1e5) = 0 := by linarith
      rcases mul_eq_zero.mp this with h1 | h1
      · exact hv0 (by rw [div_eq_zero_iff] at h1; rcases h1 with h1 | h1; exacts [h1, absurd h1 (by norm_num)])
      · apply hPr
        have : Pr / 1e5 = Pb := by linarith
        rw [← this]; field_simp

example : ∃ r : ℝ → TPS, ∃ d, (∀ᶠ x in 𝓝 (exP * 1e5), gasEntry .SRK 216 x [[100]] exAr 1e5 TPS.default true = .ok (some (r x))) ∧
      HasDerivAt (fun x => (r x).G.val) d (exP * 1e5) ∧ d ≠ (r (exP * 1e5)).V.val / 1e5 := by
  have := exP_val
  exact (C104_volume_refuted 216 exP 100 1e5 exAr TPS.default rfl (by norm_num) (by norm_num) (by norm_num) (by norm_num; linarith)
    (by norm_num; linarith) (by norm_num [exAr]) (by norm_num [exAr]) (by intro h; norm_num at h; linarith) exAr_single).2

/-- At pressure 0 there is a result: below the lower limit, that of an ideal gas at 1 Pa. -/
example : ∃ r, gasEntry .SRK 90 0 [[100]] exAr 1e5 TPS.default false = .ok (some r) ∧ r.V.val ≠ 0 := by
  rw [C104_zero_partial]
  have hc : calcFugPure .SRK 100 90 (1 / 1e5) (fun i => exAr.getD i 0) = some { phi := 1, g := 0, h := some 0, s := some 0, v := 8.31451 * 90 / (1 / 1e5), cp := 0 } := by
    unfold calcFugPure
    rw [if_neg (by norm_num)]
  have he := (entry_of (m := .SRK) (T := 90) (P := 1) (lo := 100) (Pr := 1e5) (rest := []) (tail := []) (crit := exAr) (tps := TPS.default)
    (by simp [exAr]) one_ne_zero hc rfl rfl).1
  refine ⟨_, he, ?_⟩
  rw [(increment_vals one_ne_zero one_pos).2.2.2.1]
  norm_num

/-! ### C105: what the gas models read -/

/-- **C105** (partial): with an interval that has a lower limit and at least seven critical parameters, nothing outside the record is read. -/
theorem C105_reads_partial (m : Eos) (T P lo Pr : ℝ) (rest : List ℝ) (tail : List (List ℝ)) (crit : List ℝ) (tps : TPS) (a : Bool)
    (hl : 7 ≤ crit.length) : ∃ r, gasEntry m T P ((lo :: rest) :: tail) crit Pr tps a = .ok r := by
  unfold gasEntry gasProps
  dsimp only
  rw [if_neg (by omega)]
  exact ⟨_, rfl⟩

example : ∃ r, gasEntry .PR78 300 1e5 [[100, 6000]] exAr 1e5 TPS.default true = .ok r :=
  C105_reads_partial .PR78 300 1e5 100 1e5 [6000] [] exAr TPS.default true (by simp [exAr])

/-- **C105** is violated: a record without temperature intervals, or with fewer than seven critical parameters (six are used by PRSV, three by
the others), makes the gas models read outside the vectors, at every temperature and pressure. -/
theorem C105_refuted (m : Eos) (T P Pr : ℝ) (intervals : List (List ℝ)) (crit : List ℝ) (tps : TPS) (a : Bool)
    (h : intervals = [] ∨ (∃ l, intervals = [] :: l) ∨ crit.length < 7) : gasEntry m T P intervals crit Pr tps a = .ub := by
  unfold gasEntry gasProps
  dsimp only
  rcases intervals with _ | ⟨_ | ⟨lo, rest⟩, tail⟩
  · rfl
  · rfl
  · rcases h with h | ⟨l, h⟩ | h
    · cases h
    · cases h
    · dsimp only
      rw [if_pos h]
      rfl

/-- Three critical parameters, which are all SRK uses. -/
example : gasEntry .SRK 300 1e5 [[100, 6000]] [150, 50, 0] 1e5 TPS.default true = .ub :=
  C105_refuted .SRK 300 1e5 1e5 [[100, 6000]] [150, 50, 0] TPS.default true (Or.inr (Or.inr (by simp)))

end ThermoFun.Gas

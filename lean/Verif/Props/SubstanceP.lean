import Verif.Model.Substance
import Verif.Lemmas.TSOps
import Mathlib.Analysis.SpecialFunctions.Pow.Deriv

/-!
Properties C28, C33 and C34: entropy/Cp integration and the pressure corrections of substances.
-/

set_option linter.unusedSimpArgs false

namespace ThermoFun

lemma val_addAssignD (x : TS) (d : ℝ) : (TS.addAssignD x d).val = x.val + d := rfl
lemma val_assign (x : TS) (d : ℝ) : (TS.assign x d).val = d := rfl
@[simp] lemma val_pbar (P : ℝ) : (pbar P).val = P / 1e5 := by simp [pbar]

/-- What the record says: an undefined property has the value zero (default construction, ThermoScalar.hpp:62-68). -/
def Recorded (x : TS) : Prop := ¬ x.has → x.val = 0

/-! ### C28 -/

lemma entropyCp_vals (T Tr : ℝ) (pt ref : TPS) (hS : Recorded ref.S) (hC : Recorded ref.Cp) :
    (entropyCpEntry T Tr pt ref).Cp.val = ref.Cp.val ∧
    (entropyCpEntry T Tr pt ref).H.val = ref.H.val + ref.Cp.val * (T - Tr) ∧
    (entropyCpEntry T Tr pt ref).S.val = ref.S.val + ref.Cp.val * Real.log (T / Tr) ∧
    (entropyCpEntry T Tr pt ref).G.val = ref.G.val - ref.S.val * (T - Tr) - ref.Cp.val * (T * Real.log (T / Tr) - (T - Tr)) := by
  by_cases h1 : ref.S.has <;> by_cases h2 : ref.Cp.has
  · simp [entropyCpEntry, entropyCp, h1, h2]
  · simp [entropyCpEntry, entropyCp, h1, h2, hC h2]
  · simp [entropyCpEntry, entropyCp, h1, h2, hS h1]
  · simp [entropyCpEntry, entropyCp, h1, h2, hS h1, hC h2]

/-- **C28.**  Integration of a constant heat capacity is exact. -/
theorem C28_exact (Tr : ℝ) (hTr : 0 < Tr) (pt ref : TPS) (hS : Recorded ref.S) (hC : Recorded ref.Cp) (T : ℝ) (hT : 0 < T) :
    let f := fun t => entropyCpEntry t Tr pt ref
    HasDerivAt (fun t => (f t).H.val) (f T).Cp.val T ∧
    HasDerivAt (fun t => (f t).S.val) ((f T).Cp.val / T) T ∧
    HasDerivAt (fun t => (f t).G.val) (-(f T).S.val) T ∧
    ((f Tr).G.val = ref.G.val ∧ (f Tr).H.val = ref.H.val ∧ (f Tr).S.val = ref.S.val ∧ (f Tr).Cp.val = ref.Cp.val) ∧
    (f T).G.val - (f T).H.val + T * (f T).S.val = ref.G.val - ref.H.val + Tr * ref.S.val := by
  have hv := fun t => entropyCp_vals t Tr pt ref hS hC
  have hid := hasDerivAt_id' T
  have hTr' := hTr.ne'
  have hT' := hT.ne'
  have hlog : HasDerivAt (fun t : ℝ => Real.log (t / Tr)) (1 / T) T := by
    refine ((hid.div_const Tr).log (by positivity)).congr_deriv ?_
    field_simp
  refine ⟨?_, ?_, ?_, ⟨?_, ?_, ?_, ?_⟩, ?_⟩
  · simp only [(hv _).2.1, (hv _).1]
    exact (((hid.sub_const Tr).const_mul _).const_add _).congr_deriv (by ring)
  · simp only [(hv _).2.2.1, (hv _).1]
    exact ((hlog.const_mul _).const_add _).congr_deriv (by ring)
  · simp only [(hv _).2.2.2, (hv _).2.2.1]
    refine ((((hid.sub_const Tr).const_mul _).const_sub _).sub (((hid.mul hlog).sub (hid.sub_const Tr)).const_mul _)).congr_deriv ?_
    field_simp
    ring
  · simp [(hv _).2.2.2, div_self hTr']
  · simp [(hv _).2.1]
  · simp [(hv _).2.2.1, div_self hTr']
  · simp [(hv _).1]
  · simp only [(hv _).2.2.2, (hv _).2.2.1, (hv _).2.1]
    ring

/-- A record with S = 50, Cp = 75. -/
example : ∃ ref : TPS, Recorded ref.S ∧ Recorded ref.Cp ∧ ref.S.val = 50 ∧ ref.Cp.val = 75 :=
  ⟨{ TPS.default with S := TS.mk5 50 0 0 0 .read, Cp := TS.mk5 75 0 0 0 .read }, by simp [Recorded, TS.has], by simp [Recorded, TS.has], rfl, rfl⟩

/-! ### C33 -/

/-- **C33, constant molar volume.**  G and H grow by V (P - Pr), S and Cp stay, dG/dP = V, and U and A follow; without a recorded volume
nothing changes. -/
theorem C33_constant_volume (T P Pr : ℝ) (ref tps : TPS) :
    (ref.V.has →
      let r := fun p => conMolVol T p ref Pr tps
      (r P).G.val = tps.G.val + ref.V.val * (P - Pr) / 1e5 ∧ (r P).H.val = tps.H.val + ref.V.val * (P - Pr) / 1e5 ∧
      (r P).V = ref.V ∧ (r P).S = tps.S ∧ (r P).Cp = tps.Cp ∧
      HasDerivAt (fun p => (r p).G.val) ((r P).V.val / 1e5) P ∧
      (r P).U.val = (r P).H.val - P / 1e5 * (r P).V.val ∧ (r P).A.val = (r P).U.val - T * (r P).S.val) ∧
    (¬ ref.V.has → conMolVol T P ref Pr tps = tps) := by
  refine ⟨fun h => ?_, fun h => by simp [conMolVol, h]⟩
  have hG : ∀ p, (conMolVol T p ref Pr tps).G.val = tps.G.val + ref.V.val * (p - Pr) / 1e5 := by
    intro p; simp [conMolVol, h]; ring
  have hV : (conMolVol T P ref Pr tps).V = ref.V := by simp [conMolVol, h]
  refine ⟨hG P, ?_, hV, ?_, ?_, ?_, ?_, ?_⟩
  · simp [conMolVol, h]; ring
  · simp [conMolVol, h]
  · simp [conMolVol, h]
  · simp only [hG, hV]
    exact ((((((hasDerivAt_id' P).sub_const Pr).const_mul _).div_const _).const_add _)).congr_deriv (by ring)
  · simp [conMolVol, h]
  · simp [conMolVol, h]

/-- A substance with a volume of 1 J/bar. -/
example : ∃ ref : TPS, ref.V.has ∧ ref.V.val = 1 := ⟨{ TPS.default with V := TS.mk5 1 0 0 0 .read }, by simp [TS.has], rfl⟩

/-- **C33, ideal gas, the part that holds.**  A gas gets the volume R T / P; with the pressure correction on, U and A follow from the
other properties.  Missing: dG/dP = V. -/
theorem C33_ideal_gas_partial (T P Pr : ℝ) (hP : 0 < P) (tps : TPS) :
    (idealGasLawVol T P true Pr tps false).V.val = Rgas * T / (P / 1e5) ∧
    (idealGasLawVol T P true Pr tps false).G = tps.G ∧
    let r := idealGasLawVol T P true Pr tps true
    r.V.val = Rgas * T / (P / 1e5) ∧ r.S = tps.S ∧ r.Cp = tps.Cp ∧
      r.U.val = r.H.val - P / 1e5 * r.V.val ∧ r.A.val = r.U.val - T * r.S.val := by
  refine ⟨?_, ?_, ?_, ?_, ?_, ?_, ?_⟩
  · simp [idealGasLawVol, hP]; ring
  · simp [idealGasLawVol, hP]
  · simp [idealGasLawVol, hP, applyPressure]; ring
  · simp [idealGasLawVol, hP, applyPressure]
  · simp [idealGasLawVol, hP, applyPressure]
  · simp [idealGasLawVol, hP, applyPressure]
  · simp [idealGasLawVol, hP, applyPressure]

/-- **C33 refuted for the ideal gas.**  The correction adds V(T,P) (P - Pr) with the volume at the final pressure instead of the integral
R T ln(P/Pr), so dG/dP is R T Pr / P² instead of V = R T / P; they agree only at P = Pr. -/
theorem C33_ideal_gas_refuted (T Pr P : ℝ) (hT : 0 < T) (hP : 0 < P) (hne : P ≠ Pr) (tps : TPS) :
    let r := fun p => idealGasLawVol T p true Pr tps true
    ¬ HasDerivAt (fun p => (r p).G.val) ((r P).V.val / 1e5) P := by
  intro r h
  have hG : ∀ p, 0 < p → (r p).G.val = tps.G.val + Rgas * T * (1 - Pr / p) := by
    intro p hp
    have := hp.ne'
    simp [r, idealGasLawVol, hp, applyPressure]
    field_simp
  have hV : (r P).V.val = Rgas * T / (P / 1e5) := by simp [r, idealGasLawVol, hP, applyPressure]; ring
  have hd : HasDerivAt (fun p => (r p).G.val) (Rgas * T * (Pr / P ^ 2)) P := by
    have h1 := (((hasDerivAt_const P Pr).div (hasDerivAt_id' P) hP.ne').const_sub 1).const_mul (Rgas * T) |>.const_add tps.G.val
    refine (h1.congr_deriv (by field_simp; ring)).congr_of_eventuallyEq ?_
    filter_upwards [lt_mem_nhds hP] with p hp
    exact hG p hp
  have e := h.unique hd
  rw [hV] at e
  have hR : Rgas ≠ 0 := by norm_num [Rgas]
  have hT' := hT.ne'
  have hP' := hP.ne'
  field_simp at e
  norm_num at e
  exact hne e

/-- Two bar, reference 1 bar. -/
example : ∃ T Pr P : ℝ, 0 < T ∧ 0 < P ∧ P ≠ Pr := ⟨300, 1e5, 2e5, by norm_num, by norm_num, by norm_num⟩

/-! ### C34 -/

lemma berman_vals (T P Tst Pr : ℝ) (ref tps : TPS) (v0 v1 v2 v3 v4 : ℝ) :
    ∃ r, berman88 (TS.temperature T) (pbar P) Tst Pr ref [v0, v1, v2, v3, v4] tps = .ok r ∧
      (let t := T - Tst; let p := P / 1e5 - Pr / 1e5; let V := ref.V.val
       r.V.val = V * (1 + v0 * t + v1 * t ^ 2 + v2 * Tst ^ 2 * t + v3 * p + v4 * p ^ 2) ∧
       r.G.val = tps.G.val + V * p * (1 + v0 * t + v1 * Tst ^ 2 + v2 * Tst ^ 2 * t + v3 * p / 2 + v4 * p ^ 2 / 3) ∧
       r.S.val = tps.S.val - V * p * (v0 + 2 * v1 * t + 3 * v2 * Tst ^ 2) ∧
       r.H.val = tps.H.val + V * p * (1 - v0 * Tst - v1 * (T + Tst) * t + v2 * Tst ^ 2 * (2 * T + Tst) + v3 * p / 2 + v4 * p ^ 2 / 3) ∧
       r.Cp = tps.Cp) := by
  by_cases h : (pbar P - Pr / 1e5).val ≠ 0 ∨ (TS.temperature T - Tst).val ≠ 0
  · refine ⟨_, by simp only [berman88, List.length_cons, List.length_nil, ne_eq, Nat.reduceAdd, not_true_eq_false, if_false]; rw [if_pos h], ?_⟩
    simp only [TS.op_val_add, TS.op_val_addL, TS.op_val_addR, TS.op_val_neg, TS.op_val_sub, TS.op_val_subL, TS.op_val_subR,
      TS.op_val_mul, TS.op_val_mulL, TS.op_val_mulR, TS.op_val_div, TS.op_val_divL, TS.op_val_divR, TS.val_temperature, val_pbar,
      TS.val_addAssign, and_true]
    refine ⟨?_, ?_, ?_, ?_⟩ <;> ring
  · refine ⟨_, by simp only [berman88, List.length_cons, List.length_nil, ne_eq, Nat.reduceAdd, not_true_eq_false, if_false]; rw [if_neg h], ?_⟩
    push Not at h
    obtain ⟨hp, ht⟩ := h
    simp only [TS.op_val_subR, val_pbar, TS.val_temperature] at hp ht
    simp [hp, ht]

/-- The increments of a pressure-volume model are consistent at T, P: `d0` is the state the increments are added to, which does not depend on
pressure and is consistent itself (dG/dT = -S, H = G + T S are required of the increments only). -/
structure PVConsistent (f : ℝ → ℝ → TPS) (tps : TPS) (T P : ℝ) : Prop where
  /-- dG/dP = V -/
  volume : HasDerivAt (fun p => (f T p).G.val) ((f T P).V.val / 1e5) P
  /-- d(ΔG)/dT = -ΔS -/
  entropy : HasDerivAt (fun t => (f t P).G.val) (-((f T P).S.val - tps.S.val)) T
  /-- ΔH = ΔG + T ΔS -/
  enthalpy : (f T P).H.val - tps.H.val = ((f T P).G.val - tps.G.val) + T * ((f T P).S.val - tps.S.val)

/-- **C34, the part that holds.**  With the second and third coefficient zero the Berman model is consistent at every T, P.  Missing: all
other minerals, see below. -/
theorem C34_linear_partial (Tst Pr : ℝ) (ref tps : TPS) (v0 v3 v4 T P : ℝ) :
    ∃ f : ℝ → ℝ → TPS, (∀ t p, berman88 (TS.temperature t) (pbar p) Tst Pr ref [v0, 0, 0, v3, v4] tps = .ok (f t p)) ∧
      PVConsistent f tps T P := by
  choose f hf h1 h2 h3 h4 h5 using fun t p => berman_vals t p Tst Pr ref tps v0 0 0 v3 v4
  refine ⟨f, hf, ?_, ?_, ?_⟩
  · simp only [h2, h1]
    have hp : HasDerivAt (fun p : ℝ => p / 1e5 - Pr / 1e5) (1 / 1e5) P := ((hasDerivAt_id' P).div_const _).sub_const _
    have := ((hp.const_mul ref.V.val).mul (((hp.const_mul (v3 / 2)).const_add (1 + v0 * (T - Tst))).add
      ((hp.pow 2).const_mul (v4 / 3)))).const_add tps.G.val
    refine (this.congr_deriv ?_).congr_of_eventuallyEq (Filter.Eventually.of_forall fun p => ?_)
    · simp only [Pi.add_apply, Pi.mul_apply, Pi.pow_apply]; push_cast; ring
    · simp only [Pi.add_apply, Pi.mul_apply, Pi.pow_apply]; ring
  · simp only [h2, h3]
    have ht : HasDerivAt (fun t : ℝ => t - Tst) 1 T := (hasDerivAt_id' T).sub_const _
    have := (((ht.const_mul v0).const_add (1 + v3 * (P / 1e5 - Pr / 1e5) / 2 + v4 * (P / 1e5 - Pr / 1e5) ^ 2 / 3)).const_mul
      (ref.V.val * (P / 1e5 - Pr / 1e5))).const_add tps.G.val
    refine (this.congr_deriv ?_).congr_of_eventuallyEq (Filter.Eventually.of_forall fun p => ?_)
    · ring
    · simp only; ring
  · rw [h4, h2, h3]; ring

/-- A quartz-like mineral: the theorem has no further hypotheses; its volume does change. -/
example : ∃ r, berman88 (TS.temperature 500) (pbar 1e8) 298.15 1e5 { TPS.default with V := TS.mk5 2.2 0 0 0 .read }
    [2e-5, 0, 0, -2e-6, 1e-12] TPS.default = .ok r ∧ r.V.val ≠ 2.2 := by
  obtain ⟨r, hr, h, -⟩ := berman_vals 500 1e8 298.15 1e5 { TPS.default with V := TS.mk5 2.2 0 0 0 .read } TPS.default 2e-5 0 0 (-2e-6) 1e-12
  refine ⟨r, hr, ?_⟩
  rw [h]; norm_num

/-- **C34 refuted.**  The squares and cubes of T - Tr in G, S, H and V were replaced by the square of the reference temperature.  At the
reference temperature, and any pressure, the slope of G differs from V by V° v1 Tr²; and H - G - T S is off. -/
theorem C34_refuted (Tst Pr P : ℝ) (hT : 0 < Tst) (hP : Pr < P) (ref tps : TPS) (hV : 0 < ref.V.val) (v0 v1 v2 v3 v4 : ℝ) (h1 : v1 ≠ 0) :
    ∃ f : ℝ → ℝ → TPS, (∀ t p, berman88 (TS.temperature t) (pbar p) Tst Pr ref [v0, v1, v2, v3, v4] tps = .ok (f t p)) ∧
      HasDerivAt (fun p => (f Tst p).G.val) (((f Tst P).V.val + ref.V.val * v1 * Tst ^ 2) / 1e5) P ∧
      ¬ HasDerivAt (fun p => (f Tst p).G.val) ((f Tst P).V.val / 1e5) P ∧
      (v2 = 0 → (f Tst P).H.val - tps.H.val ≠ ((f Tst P).G.val - tps.G.val) + Tst * ((f Tst P).S.val - tps.S.val)) := by
  choose f hf e1 e2 e3 e4 e5 using fun t p => berman_vals t p Tst Pr ref tps v0 v1 v2 v3 v4
  have hd : HasDerivAt (fun p => (f Tst p).G.val) (((f Tst P).V.val + ref.V.val * v1 * Tst ^ 2) / 1e5) P := by
    simp only [e2, e1]
    have hp : HasDerivAt (fun p : ℝ => p / 1e5 - Pr / 1e5) (1 / 1e5) P := ((hasDerivAt_id' P).div_const _).sub_const _
    have := ((hp.const_mul ref.V.val).mul (((hp.const_mul (v3 / 2)).const_add (1 + v1 * Tst ^ 2)).add
      ((hp.pow 2).const_mul (v4 / 3)))).const_add tps.G.val
    refine (this.congr_deriv ?_).congr_of_eventuallyEq (Filter.Eventually.of_forall fun p => ?_)
    · simp only [Pi.add_apply, Pi.mul_apply, Pi.pow_apply]; push_cast; ring
    · simp only [Pi.add_apply, Pi.mul_apply, Pi.pow_apply]; ring
  have hne : ref.V.val * v1 * Tst ^ 2 ≠ 0 := by positivity
  refine ⟨f, hf, hd, fun h => ?_, fun h2 => ?_⟩
  · have := h.unique hd
    apply hne
    linarith
  · rw [e4, e2, e3, h2]
    intro h
    have hp : P / 1e5 - Pr / 1e5 ≠ 0 := by
      have : 0 < P / 1e5 - Pr / 1e5 := by rw [← sub_div]; apply div_pos <;> linarith
      exact this.ne'
    apply hne
    have : (P / 1e5 - Pr / 1e5) * (ref.V.val * v1 * Tst ^ 2) = 0 := by linear_combination -h
    exact (mul_eq_zero.1 this).resolve_left hp

/-- A mineral with v1 ≠ 0. -/
example : ∃ (Tst Pr P v1 : ℝ) (ref : TPS), 0 < Tst ∧ Pr < P ∧ 0 < ref.V.val ∧ v1 ≠ 0 :=
  ⟨298.15, 1e5, 1e8, 1e-8, { TPS.default with V := TS.mk5 2.2 0 0 0 .read }, by norm_num, by norm_num, by norm_num, by norm_num⟩

end ThermoFun

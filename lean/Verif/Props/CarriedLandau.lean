import Verif.Props.CarriedS
import Verif.Props.Landau

/-!
C98 for the Landau model of Holland and Powell: off the transition all its results carry their derivatives.
-/

open Filter Topology

namespace ThermoFun
namespace LandauC98

variable (l : LandauPar) (Tr k a : ℝ) (tps : ℝ → ℝ → TPS)

/-! The intermediate quantities of `landau` (SolidHPLandau.cpp:24-63) as functions of temperature and pressure; `hi` and `lo` are its results at and above, and below
the transition (lines 66-85). -/

noncomputable def tcr (_ p : ℝ) : TS :=
  TS.addAssignD (if l.Vmax = 0 then TS.assign TS.default l.Tc0 else l.Tc0 + (l.Vmax / l.Smax : ℝ) * pbar p) 273.15
noncomputable def q298 : ℝ := (1 - Tr / (l.Tc0 + 273.15)) ^ (0.25 : ℝ)
noncomputable def qq (t p : ℝ) : TS := TS.powR ((1 : ℝ) - TS.temperature t / tcr l t p) 0.25
noncomputable def dq (t p : ℝ) : TS :=
  (-TS.temperature t) * l.Vmax / ((4 : ℝ) * TS.powR ((1 : ℝ) + TS.temperature t / tcr l t p) 0.75 * TS.powR (tcr l t p) 2 * l.Smax)
noncomputable def kt (t _p : ℝ) : TS := k * ((1 : ℝ) - (1.5e-4 : ℝ) * (TS.temperature t - Tr))
noncomputable def vb (t _p : ℝ) : TS :=
  (l.Vmax * q298 l Tr ^ (2 : ℝ)) * ((1 : ℝ) + (a * 1e-5) * (TS.temperature t - Tr) - (20 * (a * 1e-5) : ℝ) * (TS.sqrt (TS.temperature t) - Real.sqrt Tr))
noncomputable def qk (t p : ℝ) : TS := (1 : ℝ) + (4 : ℝ) * (pbar p / (1000 : ℝ)) / kt Tr k t p
noncomputable def ivdp (t p : ℝ) : TS := (vb l Tr a t p * kt Tr k t p / (3 : ℝ)) * (TS.powR (qk Tr k t p) 0.75 - (1 : ℝ)) * (1000 : ℝ)
noncomputable def idv (t p : ℝ) : TS :=
  (((l.Vmax * q298 l Tr ^ (2 : ℝ)) * kt Tr k t p / (3 : ℝ)) * ((a * 1e-5) - (10 * (a * 1e-5) : ℝ) * TS.powR (TS.temperature t) (-0.5)) * (TS.powR (qk Tr k t p) 0.75 - (1 : ℝ))
        - (vb l Tr a t p * k / (3 : ℝ)) * (1.5e-4 : ℝ) * (TS.powR (qk Tr k t p) 0.75 - (1 : ℝ))
        + vb l Tr a t p * (pbar p / (1000 : ℝ)) * (1.5e-4 : ℝ) / ((1 : ℝ) - (1.5e-4 : ℝ) * (TS.temperature t - Tr)) * TS.powR (qk Tr k t p) (-0.25)) * (1000 : ℝ)
noncomputable def smq : ℝ := l.Smax * (l.Tc0 + 273.15) * (q298 l Tr ^ (2 : ℝ) - q298 l Tr ^ (6 : ℝ) / 3)

noncomputable def hi (t p : ℝ) : TPS :=
  let TK := TS.temperature t
  let Q2 := q298 l Tr ^ (2 : ℝ)
  let r : TPS := { tps t p with
          G := TS.addAssign (tps t p).G (smq l Tr - TK * l.Smax * Q2 + ivdp l Tr k a t p
            + l.Smax * ((TK - tcr l t p) * (0 : ℝ) ^ (2 : ℝ) + tcr l t p * (0 : ℝ) ^ (6 : ℝ) / (3 : ℝ))),
          S := TS.addAssign (tps t p).S ((l.Smax * (Q2 - (0 : ℝ) ^ (2 : ℝ)) : ℝ) - idv l Tr k a t p),
          H := TS.addAssign (tps t p).H (smq l Tr - l.Smax * tcr l t p * ((0 : ℝ) ^ (2 : ℝ) - (0 : ℝ) ^ (6 : ℝ) / 3 : ℝ) + ivdp l Tr k a t p - TK * idv l Tr k a t p),
          V := vb l Tr a t p + (2 * l.Smax) * (TK - tcr l t p) * (0 : ℝ) * (0 : ℝ) - (l.Smax * (0 : ℝ) ^ (2 : ℝ) * l.Vmax / l.Smax : ℝ)
            + tcr l t p * (0 : ℝ) ^ (2 : ℝ) * (0 : ℝ) + (l.Vmax / l.Smax * (0 : ℝ) ^ (3 : ℝ) / 3 : ℝ) }
  let U := r.H - pbar p * r.V
  { r with U := U, A := U - TK * r.S }

noncomputable def lo (t p : ℝ) : TPS :=
  let TK := TS.temperature t
  let Q2 := q298 l Tr ^ (2 : ℝ)
  let r : TPS := { tps t p with
          G := TS.addAssign (tps t p).G (smq l Tr - TK * l.Smax * Q2 + ivdp l Tr k a t p
            + l.Smax * ((TK - tcr l t p) * TS.powR (qq l t p) 2 + tcr l t p * TS.powR (qq l t p) 6 / (3 : ℝ))),
          S := TS.addAssign (tps t p).S (l.Smax * (Q2 - TS.powR (qq l t p) 2) - idv l Tr k a t p),
          H := TS.addAssign (tps t p).H (smq l Tr - l.Smax * tcr l t p * (TS.powR (qq l t p) 2 - TS.powR (qq l t p) 6 / (3 : ℝ)) + ivdp l Tr k a t p - TK * idv l Tr k a t p),
          V := vb l Tr a t p + (2 * l.Smax) * (TK - tcr l t p) * qq l t p * dq l t p - l.Smax * TS.powR (qq l t p) 2 * l.Vmax / l.Smax
            + tcr l t p * TS.powR (qq l t p) 2 * dq l t p + (l.Vmax / l.Smax) * TS.powR (qq l t p) 3 / (3 : ℝ) }
  let U := r.H - pbar p * r.V
  { r with
    Cp := TS.addAssign r.Cp (TK * l.Smax / ((2 : ℝ) * TS.sqrt (tcr l t p) * TS.sqrt (tcr l t p - TK)))
    U := U
    A := U - TK * r.S }

variable {l Tr k a tps} {T P : ℝ}

lemma tcr_val (t : ℝ) : (tcr l t P).val = l.Tc P := by
  unfold tcr
  rw [val_addAssignD]
  by_cases hv : l.Vmax = 0
  · simp [hv, LandauPar.Tc, val_assign]
  · simp [hv, LandauPar.Tc]

lemma hi_eq (rest : List ℝ) (hS : 0 < l.Smax) (h : l.Tc P ≤ T) :
    landau (TS.temperature T) (pbar P) Tr (l.Tc0 :: l.Smax :: l.Vmax :: rest) k a (tps T P) = .ok (hi l Tr k a tps T P) := by
  have hlt : ¬ (TS.temperature T).val < (tcr l T P).val := by rw [tcr_val]; exact not_lt.mpr h
  have hS' : ¬ l.Smax ≤ 0 := not_le.2 hS
  unfold tcr at hlt
  simp only [landau, if_neg hS', if_neg hlt]
  rw [if_pos ⟨val_assign _ _, val_assign _ _⟩]
  rfl

lemma lo_eq (rest : List ℝ) (hS : 0 < l.Smax) (hT : 0 < l.Tc P) (h : T < l.Tc P) :
    landau (TS.temperature T) (pbar P) Tr (l.Tc0 :: l.Smax :: l.Vmax :: rest) k a (tps T P) = .ok (lo l Tr k a tps T P) := by
  have hlt : (TS.temperature T).val < (tcr l T P).val := by rw [tcr_val]; exact h
  have hS' : ¬ l.Smax ≤ 0 := not_le.2 hS
  have hq : (qq l T P).val ≠ 0 := by
    unfold qq
    simp only [TS.val_powR, TS.op_val_subL, TS.op_val_div, TS.val_temperature, tcr_val]
    have : T / l.Tc P < 1 := (div_lt_one hT).2 h
    exact (Real.rpow_pos_of_pos (by linarith) _).ne'
  have hn : ¬ ((qq l T P).val = 0 ∧ (dq l T P).val = 0) := fun e => hq e.1
  unfold qq dq tcr at hn
  unfold tcr at hlt
  simp only [landau, if_neg hS', if_pos hlt]
  rw [if_neg hn]
  rfl

lemma tcr_c : Carries (tcr l) T P := by
  unfold tcr
  by_cases h : l.Vmax = 0
  · simp only [if_pos h]
    carries
  · simp only [if_neg h]
    carries

variable (hT : 0 < T) (hk : k * (1 - 1.5e-4 * (T - Tr)) ≠ 0) (hq : 1 + 4 * (P / 1e5 / 1000) / (k * (1 - 1.5e-4 * (T - Tr))) ≠ 0)

lemma kt_c : Carries (kt Tr k) T P := by unfold kt; carries
lemma kt_val (t p : ℝ) : (kt Tr k t p).val = k * (1 - 1.5e-4 * (t - Tr)) := by simp [kt]
lemma qk_val (t p : ℝ) : (qk Tr k t p).val = 1 + 4 * (p / 1e5 / 1000) / (k * (1 - 1.5e-4 * (t - Tr))) := by simp [qk, kt]

include hT in
lemma vb_c : Carries (vb l Tr a) T P := by
  unfold vb
  carries

include hk in
lemma qk_c : Carries (qk Tr k) T P := by
  unfold qk
  have := kt_c (Tr := Tr) (k := k) (T := T) (P := P)
  carries
  rw [kt_val]; exact hk

include hT hk hq in
lemma ivdp_c : Carries (ivdp l Tr k a) T P := by
  unfold ivdp
  have h1 := kt_c (Tr := Tr) (k := k) (T := T) (P := P)
  have h2 := vb_c (l := l) (Tr := Tr) (a := a) (P := P) hT
  have h3 := qk_c (P := P) hk
  carries
  left; rw [qk_val]; exact hq

include hT hk hq in
lemma idv_c : Carries (idv l Tr k a) T P := by
  unfold idv
  have h1 := kt_c (Tr := Tr) (k := k) (T := T) (P := P)
  have h2 := vb_c (l := l) (Tr := Tr) (a := a) (P := P) hT
  have h3 := qk_c (P := P) hk
  have hq' : (qk Tr k T P).val ≠ 0 := by rw [qk_val]; exact hq
  carries
  · exact .inl hT.ne'
  · exact .inl hq'
  · exact .inl hq'
  · simp only [TS.op_val_subL, TS.op_val_mulL, TS.op_val_subR, TS.val_temperature]
    exact (mul_ne_zero_iff.mp hk).2
  · exact .inl hq'

lemma qq_c (hTc : 0 < l.Tc P) (h : T < l.Tc P) : Carries (qq l) T P := by
  unfold qq
  have h1 := tcr_c (l := l) (T := T) (P := P)
  carries
  · rw [tcr_val]; exact hTc.ne'
  · left
    simp only [TS.op_val_subL, TS.op_val_div, TS.val_temperature, tcr_val]
    have : T / l.Tc P < 1 := (div_lt_one hTc).2 h
    linarith

include hT in
lemma dq_c (hS : 0 < l.Smax) (hTc : 0 < l.Tc P) : Carries (dq l) T P := by
  unfold dq
  have h1 := tcr_c (l := l) (T := T) (P := P)
  have hp : 0 < T / l.Tc P := div_pos hT hTc
  carries
  · rw [tcr_val]; exact hTc.ne'
  · left
    simp only [TS.op_val_addL, TS.op_val_div, TS.val_temperature, tcr_val]
    linarith
  · right; norm_num
  · simp only [TS.op_val_addL, TS.op_val_div, TS.val_temperature, tcr_val, TS.op_val_mul, TS.op_val_mulL, TS.op_val_mulR, TS.val_powR]
    have : 0 < 1 + T / l.Tc P := by linarith
    positivity

include hT hk hq in
lemma hi_c (hc : CarriesS tps T P) : CarriesS (hi l Tr k a tps) T P := by
  have h1 := tcr_c (l := l) (T := T) (P := P)
  have h2 := vb_c (l := l) (Tr := Tr) (a := a) (P := P) hT
  have h3 := ivdp_c (l := l) (a := a) hT hk hq
  have h4 := idv_c (l := l) (a := a) hT hk hq
  obtain ⟨hG, hA, hU, hH, hS, hV, hCp, hCv⟩ := hc
  constructor <;> unfold hi <;> dsimp only <;> carries

include hT hk hq in
lemma lo_c (hS : 0 < l.Smax) (hTc : 0 < l.Tc P) (h : T < l.Tc P) (hc : CarriesS tps T P) : CarriesS (lo l Tr k a tps) T P := by
  have h1 := tcr_c (l := l) (T := T) (P := P)
  have h2 := vb_c (l := l) (Tr := Tr) (a := a) (P := P) hT
  have h3 := ivdp_c (l := l) (a := a) hT hk hq
  have h4 := idv_c (l := l) (a := a) hT hk hq
  have h5 := qq_c (T := T) hTc h
  have h6 := dq_c (T := T) hT hS hTc
  obtain ⟨hG, hA, hU, hH, hSs, hV, hCp, hCv⟩ := hc
  have n2 : (qq l T P).val ≠ 0 ∨ (1:ℝ) < 2 := by right; norm_num
  have n6 : (qq l T P).val ≠ 0 ∨ (1:ℝ) < 6 := by right; norm_num
  have n3 : (qq l T P).val ≠ 0 ∨ (1:ℝ) < 3 := by right; norm_num
  have s1 : 0 < (tcr l T P).val := by rw [tcr_val]; exact hTc
  have s2 : 0 < (tcr l T P - TS.temperature T).val := by rw [TS.op_val_sub, tcr_val]; exact sub_pos.mpr h
  have s3 : ((2 : ℝ) * TS.sqrt (tcr l T P) * TS.sqrt (tcr l T P - TS.temperature T)).val ≠ 0 := by
    simp only [TS.op_val_mul, TS.op_val_mulL, TS.val_sqrt]
    positivity
  constructor <;> unfold lo <;> dsimp only <;> carries

end LandauC98

open LandauC98 in
/-- **C98** (Landau): at every temperature other than that of the transition all properties carry their derivatives, for every record with positive transition
entropy.  Missing: the transition itself, where the heat capacity of the model is infinite on one side. -/
theorem C98_landau_partial (l : LandauPar) (rest : List ℝ) (Tr k a : ℝ) (tps : ℝ → ℝ → TPS) (T P : ℝ) (hT : 0 < T) (hS : 0 < l.Smax) (hTc : 0 < l.Tc P)
    (hne : T ≠ l.Tc P) (hk : k * (1 - 1.5e-4 * (T - Tr)) ≠ 0) (hq : 1 + 4 * (P / 1e5 / 1000) / (k * (1 - 1.5e-4 * (T - Tr))) ≠ 0)
    (hc : CarriesS tps T P) :
    CarriesS (fun t p => okOr (landau (TS.temperature t) (pbar p) Tr (l.Tc0 :: l.Smax :: l.Vmax :: rest) k a (tps t p))) T P := by
  have cT : ContinuousAt l.Tc P := by unfold LandauPar.Tc; fun_prop
  rcases lt_or_gt_of_ne hne with h | h
  · refine (lo_c (l := l) (a := a) hT hk hq hS hTc h hc).congr ?_ ?_ ?_
    · rw [lo_eq rest hS hTc h]; rfl
    · filter_upwards [gt_mem_nhds h] with t ht
      rw [lo_eq rest hS hTc ht]; rfl
    · filter_upwards [continuousAt_const.eventually_lt cT hTc, continuousAt_const.eventually_lt cT h] with p h1 h2
      rw [lo_eq rest hS h1 h2]; rfl
  · refine (hi_c (l := l) (a := a) hT hk hq hc).congr ?_ ?_ ?_
    · rw [hi_eq rest hS h.le]; rfl
    · filter_upwards [lt_mem_nhds h] with t ht
      rw [hi_eq rest hS (le_of_lt ht)]; rfl
    · filter_upwards [cT.eventually_lt continuousAt_const h] with p h1
      rw [hi_eq rest hS h1.le]; rfl

/-- Quartz, below and above its transition. -/
example : CarriesS (fun t p => okOr (landau (TS.temperature t) (pbar p) 298.15 [574, 4.95, 0.1188] 750 0.65 TPS.default)) 500 1e8 ∧
    CarriesS (fun t p => okOr (landau (TS.temperature t) (pbar p) 298.15 [574, 4.95, 0.1188] 750 0.65 TPS.default)) 1000 1e8 := by
  have hd : ∀ T P, CarriesS (fun _ _ => TPS.default) T P := by
    intro T P
    constructor <;> exact Carries.default
  constructor
  · exact C98_landau_partial ⟨574, 4.95, 0.1188⟩ [] 298.15 750 0.65 _ 500 1e8 (by norm_num) (by norm_num) (by norm_num [LandauPar.Tc]) (by norm_num [LandauPar.Tc])
      (by norm_num) (by norm_num) (hd _ _)
  · exact C98_landau_partial ⟨574, 4.95, 0.1188⟩ [] 298.15 750 0.65 _ 1000 1e8 (by norm_num) (by norm_num) (by norm_num [LandauPar.Tc]) (by norm_num [LandauPar.Tc])
      (by norm_num) (by norm_num) (hd _ _)

end ThermoFun

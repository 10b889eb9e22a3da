import Verif.Model.Solutes
import Verif.Model.WaterState
import Verif.Props.Density
import Verif.Props.SubstanceP
import Verif.Lemmas.Carries

/-!
Theorems about /repo/ThermoFun/Substances/Solute/{SoluteADgems,SoluteAnderson91,SoluteHollandPowell98}.cpp: thermodynamic consistency of the
Akinfiev–Diamond model (C96) and of the two density models of solutes (C97).
-/

namespace ThermoFun

/-- What thermodynamics requires of the properties of a substance as functions of temperature (K) and pressure (Pa), volumes in J/bar. -/
structure ConsistentS (f : ℝ → ℝ → TPS) (T P : ℝ) : Prop where
  /-- ∂G/∂T = -S -/
  entropy : HasDerivAt (fun t => (f t P).G.val) (-(f T P).S.val) T
  /-- ∂H/∂T = Cp -/
  heatCapacity : HasDerivAt (fun t => (f t P).H.val) (f T P).Cp.val T
  /-- ∂S/∂T = Cp/T -/
  entropySlope : HasDerivAt (fun t => (f t P).S.val) ((f T P).Cp.val / T) T
  /-- ∂G/∂P = V -/
  volume : HasDerivAt (fun p => (f T p).G.val) ((f T P).V.val / 1e5) P
  /-- U = H - P V -/
  internal : (f T P).U.val = (f T P).H.val - P / 1e5 * (f T P).V.val
  /-- A = U - T S -/
  helmholtz : (f T P).A.val = (f T P).U.val - T * (f T P).S.val

/-! ### Akinfiev–Diamond -/

/-- Water as the Akinfiev–Diamond model needs it: consistent properties `w` of water and `ig` of its ideal gas, a density that belongs to
them; `M` is the molar mass (g/mol) that relates the density and the volume of water. -/
structure ADWater (M : ℝ) (w ig : ℝ → ℝ → TPS) (wp : ℝ → ℝ → Solv) (T P : ℝ) : Prop where
  solv : SmoothSolvent wp T P
  wS : HasDerivAt (fun t => (w t P).G.val) (-(w T P).S.val) T
  wCp : HasDerivAt (fun t => (w t P).S.val) ((w T P).Cp.val / T) T
  igS : HasDerivAt (fun t => (ig t P).G.val) (-(ig T P).S.val) T
  igCp : HasDerivAt (fun t => (ig t P).S.val) ((ig T P).Cp.val / T) T
  wV : HasDerivAt (fun p => (w T p).G.val) (M / ((wp T P).density.val / 1000) / 10 / 1e5) P
  igV : HasDerivAt (fun p => (ig T p).G.val) 0 P

/-- The factor 10^1.5 of the source. -/
noncomputable def k15 : ℝ := (10 : ℝ) ^ (1.5 : ℝ)

lemma k15_eq : (10 : ℝ) ^ (1.5 : ℝ) = k15 := rfl

lemma rpow_15 {T : ℝ} (hT : 0 < T) : (1000 / T) ^ (0.5 : ℝ) = k15 / Real.sqrt T := by
  rw [Real.div_rpow (by norm_num) hT.le, Real.sqrt_eq_rpow, k15]
  congr 1
  · rw [show (1000 : ℝ) = 10 ^ (3 : ℝ) by norm_num, ← Real.rpow_mul (by norm_num)]; norm_num
  · norm_num

lemma rpow_half {T : ℝ} : T ^ (0.5 : ℝ) = Real.sqrt T := by rw [Real.sqrt_eq_rpow]; norm_num
lemma rpow_neg_half {T : ℝ} (hT : 0 < T) : T ^ (-0.5 : ℝ) = 1 / Real.sqrt T := by
  rw [Real.rpow_neg hT.le, rpow_half, one_div]
lemma rpow_neg_15 {T : ℝ} (hT : 0 < T) : T ^ (-1.5 : ℝ) = 1 / (T * Real.sqrt T) := by
  rw [show (-1.5 : ℝ) = -(1 + 0.5) by norm_num, Real.rpow_neg hT.le, Real.rpow_add hT, Real.rpow_one, rpow_half, one_div]

/-- The increments in closed form, `r` density in g/cm³, `g s c` residual properties of water. -/
noncomputable def adG (x a b r g T : ℝ) : ℝ :=
  -Rgas * T * Real.log (1000 / 18.01528) + (1 - x) * g + Rgas * T * x * Real.log (83.1451 * T / 18.01528 * r)
    + Rgas * r * (a * T + b * k15 * Real.sqrt T)

/-- As above, entropy. -/
noncomputable def adS (x a b r al s T : ℝ) : ℝ :=
  (1 - x) * s + Rgas * Real.log (1000 / 18.01528)
    - Rgas * x * (1 + Real.log (83.1451 * T / 18.01528 * r) - T * al)
    - Rgas * (a * (r - T * al * r) + b * k15 * (r / (2 * Real.sqrt T) - Real.sqrt T * al * r))

/-- As above, heat capacity. -/
noncomputable def adCp (x a b r al dal c T : ℝ) : ℝ :=
  (1 - x) * c - Rgas * x * (1 - 2 * T * al - T ^ 2 * dal)
    - Rgas * T * (a * r * (T * (al ^ 2 - dal) - 2 * al)
      + b * k15 * r * (Real.sqrt T * (al ^ 2 - dal) - al / Real.sqrt T - 1 / (4 * (T * Real.sqrt T))))

/-- As above, volume in J/bar, `be` in 1/bar. -/
noncomputable def adV (x a b r be T : ℝ) : ℝ :=
  (18.01528 / r * (1 - x) + 83.1451 * x * T * be + 83.1451 * (a * T * be * r + b * k15 * Real.sqrt T * be * r)) / 10

lemma adAt_vals (T x a b : ℝ) (w ig : TPS) (wp : Solv) (hT : 0 < T) (hr : 0 < wp.density.val) :
    let e := adAt (TS.temperature T) x a b w ig wp
    let r := wp.density.val / 1000
    e.G.val = adG x a b r (w.G.val - ig.G.val) T ∧
    e.S.val = adS x a b r wp.Alpha.val (w.S.val - ig.S.val) T ∧
    e.Cp.val = adCp x a b r wp.Alpha.val wp.dAldT.val (w.Cp.val - ig.Cp.val) T ∧
    e.V.val = adV x a b r (wp.Beta.val * 1e5) T ∧
    e.H.val = e.G.val + T * e.S.val := by
  have hr' : 0 < wp.density.val / 1000 := by positivity
  obtain ⟨s, hs0, rfl⟩ : ∃ s, 0 < s ∧ T = s * s := ⟨Real.sqrt T, Real.sqrt_pos.mpr hT, (Real.mul_self_sqrt hT.le).symm⟩
  have hR : Rgas ≠ 0 := by norm_num [Rgas]
  dsimp only
  refine ⟨?_, ?_, ?_, ?_, ?_⟩ <;>
  simp only [adAt, adIncrements, TS.op_val_add, TS.op_val_neg, TS.op_val_sub, TS.op_val_subL, TS.op_val_mul, TS.op_val_mulL,
    TS.op_val_mulR, TS.op_val_div, TS.op_val_divL, TS.op_val_divR, TS.val_temperature, TS.val_powR, TS.val_log, TS.val_exp,
    Real.rpow_ofNat, val_assign, Real.log_exp, rpow_15 hT, rpow_half, rpow_neg_half hT, rpow_neg_15 hT, adG, adS, adCp, adV,
    Real.sqrt_mul_self hs0.le, k15_eq]
  · field_simp
  · rw [Real.log_mul (by positivity) hr'.ne']
    field_simp
    ring
  · field_simp
    ring
  · field_simp

lemma adG_T {x a b al s T : ℝ} {r g : ℝ → ℝ} (hT : 0 < T) (hr : 0 < r T) (h1 : HasDerivAt r (-(al * r T)) T) (h2 : HasDerivAt g (-s) T) :
    HasDerivAt (fun t => adG x a b (r t) (g t) t) (-adS x a b (r T) al s T) T := by
  have hs0 : 0 < Real.sqrt T := Real.sqrt_pos.mpr hT
  have hid := hasDerivAt_id' T
  have hsq : HasDerivAt (fun t => Real.sqrt t) (1 / (2 * Real.sqrt T)) T := Real.hasDerivAt_sqrt hT.ne'
  have hlog : HasDerivAt (fun t => Real.log (83.1451 * t / 18.01528 * r t)) (1 / T - al) T := by
    refine ((((hid.const_mul 83.1451).div_const 18.01528).fun_mul h1).log (by positivity)).congr_deriv ?_
    field_simp
    ring
  have := ((((hid.const_mul (-Rgas)).mul_const (Real.log (1000 / 18.01528))).fun_add (h2.const_mul (1 - x))).fun_add
    (((hid.const_mul Rgas).mul_const x).fun_mul hlog)).fun_add
    ((h1.const_mul Rgas).fun_mul ((hid.const_mul a).fun_add (hsq.const_mul (b * k15))))
  refine this.congr_deriv ?_
  unfold adS
  field_simp
  ring

lemma adS_T {x a b al dal c T : ℝ} {r s α : ℝ → ℝ} (hT : 0 < T) (hr : 0 < r T) (h0 : α T = al) (h1 : HasDerivAt r (-(al * r T)) T)
    (h2 : HasDerivAt s (c / T) T) (h3 : HasDerivAt α dal T) :
    HasDerivAt (fun t => adS x a b (r t) (α t) (s t) t) (adCp x a b (r T) al dal c T / T) T := by
  have hs0 : 0 < Real.sqrt T := Real.sqrt_pos.mpr hT
  have hs : Real.sqrt T * Real.sqrt T = T := Real.mul_self_sqrt hT.le
  have hid := hasDerivAt_id' T
  have hsq : HasDerivAt (fun t => Real.sqrt t) (1 / (2 * Real.sqrt T)) T := Real.hasDerivAt_sqrt hT.ne'
  have hlog : HasDerivAt (fun t => Real.log (83.1451 * t / 18.01528 * r t)) (1 / T - al) T := by
    refine ((((hid.const_mul 83.1451).div_const 18.01528).fun_mul h1).log (by positivity)).congr_deriv ?_
    field_simp
    ring
  have hta := (hid.fun_mul h3)
  have := ((((h2.const_mul (1 - x)).add_const (Rgas * Real.log (1000 / 18.01528))).fun_sub
    (((hlog.const_add 1).fun_sub hta).const_mul (Rgas * x)))).fun_sub
    (((((h1.fun_sub (hta.fun_mul h1)).const_mul a).fun_add
      (((h1.fun_div (hsq.const_mul 2) (by positivity)).fun_sub ((hsq.fun_mul h3).fun_mul h1)).const_mul (b * k15)))).const_mul Rgas)
  refine this.congr_deriv ?_
  unfold adCp
  rw [h0]
  generalize r T = r0
  generalize Real.sqrt T = q at *
  subst hs
  field_simp
  ring

lemma adG_P {x a b be M T P : ℝ} {r g : ℝ → ℝ} (hT : 0 < T) (hr : 0 < r P) (h1 : HasDerivAt r (be / 1e5 * r P) P)
    (h2 : HasDerivAt g (M / r P / 10 / 1e5) P) :
    HasDerivAt (fun p => adG x a b (r p) (g p) T) ((adV x a b (r P) be T + (1 - x) * (M - 18.01528) / r P / 10) / 1e5) P := by
  have hlog : HasDerivAt (fun p => Real.log (83.1451 * T / 18.01528 * r p)) (be / 1e5) P := by
    refine ((h1.const_mul (83.1451 * T / 18.01528)).log (by positivity)).congr_deriv ?_
    field_simp
  have := ((((h2.const_mul (1 - x)).const_add (-Rgas * T * Real.log (1000 / 18.01528)))).fun_add
    (hlog.const_mul (Rgas * T * x))).fun_add
    ((h1.const_mul Rgas).mul_const (a * T + b * k15 * Real.sqrt T))
  refine this.congr_deriv ?_
  unfold adV Rgas
  field_simp
  ring

/-- The results of the whole model. -/
lemma ad_vals (T P x a b : ℝ) (rest : List ℝ) (tps w ig : TPS) (wp : Solv) (wr igr : TPS) (wpr : Solv) :
    ∃ r, akinfievDiamondEntry T P (x :: a :: b :: rest) tps w ig wp wr igr wpr = .ok r ∧
      let e := adAt (TS.temperature T) x a b w ig wp
      let e0 := adAt (TS.temperature 298.15) x a b wr igr wpr
      r.G.val = tps.G.val - e0.G.val + e.G.val + e0.S.val * (T - 298.15) ∧
      r.S.val = tps.S.val - e0.S.val + e.S.val ∧
      r.Cp.val = tps.Cp.val + e.Cp.val ∧
      r.H.val = tps.H.val - e0.H.val + e.H.val ∧
      r.V.val = e.V.val ∧
      r.U.val = r.H.val - P / 1e5 * r.V.val ∧
      r.A.val = r.U.val - T * r.S.val := by
  refine ⟨_, rfl, ?_, ?_, ?_, ?_, ?_, ?_, ?_⟩ <;>
  simp only [TS.op_val_add, TS.op_val_addR, TS.op_val_sub, TS.op_val_mul, TS.val_subAssign, TS.val_temperature, val_pbar]

/-- **C96, the part that holds.**  With consistent properties of water, of its ideal gas and of the gas (`tps`), the Akinfiev–Diamond model
gives consistent properties of the dissolved gas at every T > 0: dG/dT = -S, dS/dT = Cp/T, dH/dT = Cp, and the difference of G and H - T S
is that of `tps`.  dG/dP is the volume if the molar mass of water behind its Gibbs energy is the 18.01528 g/mol used here; otherwise it
differs by (1 - ξ)(M - 18.01528)/ρ/10.  Missing: equality of the two molar masses, which the water of the code does not have (below). -/
theorem C96_partial (M T P x a b : ℝ) (rest : List ℝ) (tps w ig : ℝ → ℝ → TPS) (wp : ℝ → ℝ → Solv) (wr igr : TPS) (wpr : Solv)
    (hT : 0 < T) (hw : ADWater M w ig wp T P) (hr : 0 < wpr.density.val)
    (hG : HasDerivAt (fun t => (tps t P).G.val) (-(tps T P).S.val) T)
    (hS : HasDerivAt (fun t => (tps t P).S.val) ((tps T P).Cp.val / T) T)
    (hH : HasDerivAt (fun t => (tps t P).H.val) (tps T P).Cp.val T)
    (hP : HasDerivAt (fun p => (tps T p).G.val) 0 P) :
    ∃ f : ℝ → ℝ → TPS,
      (∀ t p, akinfievDiamondEntry t p (x :: a :: b :: rest) (tps t p) (w t p) (ig t p) (wp t p) wr igr wpr = .ok (f t p)) ∧
      HasDerivAt (fun t => (f t P).G.val) (-(f T P).S.val) T ∧
      HasDerivAt (fun t => (f t P).S.val) ((f T P).Cp.val / T) T ∧
      HasDerivAt (fun t => (f t P).H.val) (f T P).Cp.val T ∧
      (f T P).G.val - ((f T P).H.val - T * (f T P).S.val) = (tps T P).G.val - ((tps T P).H.val - T * (tps T P).S.val) ∧
      HasDerivAt (fun p => (f T p).G.val)
        (((f T P).V.val + (1 - x) * (M - 18.01528) / ((wp T P).density.val / 1000) / 10) / 1e5) P ∧
      (M = 18.01528 → ConsistentS f T P) := by
  choose f hf fG fS fCp fH fV fU fA using fun t p => ad_vals t p x a b rest (tps t p) (w t p) (ig t p) (wp t p) wr igr wpr
  have hρ : 0 < (wp T P).density.val / 1000 := by have := hw.solv.pos; positivity
  have hρT : HasDerivAt (fun t => (wp t P).density.val / 1000) (-((wp T P).Alpha.val * ((wp T P).density.val / 1000))) T :=
    (hw.solv.expansion.div_const 1000).congr_deriv (by ring)
  have hρP : HasDerivAt (fun p => (wp T p).density.val / 1000) ((wp T P).Beta.val * 1e5 / 1e5 * ((wp T P).density.val / 1000)) P :=
    (hw.solv.compression.div_const 1000).congr_deriv (by ring)
  have v0 := adAt_vals 298.15 x a b wr igr wpr (by norm_num) hr
  have v := fun (t p : ℝ) (ht : 0 < t ∧ 0 < (wp t p).density.val) => adAt_vals t x a b (w t p) (ig t p) (wp t p) ht.1 ht.2
  dsimp only at v0 v
  have hev : ∀ᶠ t in nhds T, 0 < t ∧ 0 < (wp t P).density.val :=
    (lt_mem_nhds hT).and (hw.solv.expansion.continuousAt.eventually (lt_mem_nhds hw.solv.pos))
  have hevP : ∀ᶠ p in nhds P, 0 < T ∧ 0 < (wp T p).density.val :=
    (hw.solv.compression.continuousAt.eventually (lt_mem_nhds hw.solv.pos)).mono fun p hp => ⟨hT, hp⟩
  have h0 : 0 < T ∧ 0 < (wp T P).density.val := ⟨hT, hw.solv.pos⟩
  have hg : HasDerivAt (fun t => (w t P).G.val - (ig t P).G.val) (-((w T P).S.val - (ig T P).S.val)) T :=
    (hw.wS.fun_sub hw.igS).congr_deriv (by ring)
  have hs : HasDerivAt (fun t => (w t P).S.val - (ig t P).S.val) (((w T P).Cp.val - (ig T P).Cp.val) / T) T :=
    (hw.wCp.fun_sub hw.igCp).congr_deriv (by ring)
  have hgp : HasDerivAt (fun p => (w T p).G.val - (ig T p).G.val) (M / ((wp T P).density.val / 1000) / 10 / 1e5) P :=
    (hw.wV.fun_sub hw.igV).congr_deriv (by ring)
  have dG : HasDerivAt (fun t => (f t P).G.val) (-(f T P).S.val) T := by
    have h := ((hG.sub_const (adAt (TS.temperature 298.15) x a b wr igr wpr).G.val).fun_add
      (adG_T (x := x) (a := a) (b := b) hT hρ hρT hg)).fun_add
      (((hasDerivAt_id' T).sub_const 298.15).const_mul (adAt (TS.temperature 298.15) x a b wr igr wpr).S.val)
    refine (h.congr_of_eventuallyEq (hev.mono fun t ht => ?_)).congr_deriv ?_
    · simp only [fG, (v t P ht).1]
    · rw [fS, (v T P h0).2.1]; ring
  have dS : HasDerivAt (fun t => (f t P).S.val) ((f T P).Cp.val / T) T := by
    have h := (hS.sub_const (adAt (TS.temperature 298.15) x a b wr igr wpr).S.val).fun_add
      (adS_T (x := x) (a := a) (b := b) hT hρ rfl hρT hs hw.solv.expansionT)
    refine (h.congr_of_eventuallyEq (hev.mono fun t ht => ?_)).congr_deriv ?_
    · simp only [fS, (v t P ht).2.1]
    · rw [fCp, (v T P h0).2.2.1]; ring
  have hoff : ∀ t, 0 < t ∧ 0 < (wp t P).density.val → (f t P).H.val = (f t P).G.val + t * (f t P).S.val
      + ((tps t P).H.val - (tps t P).G.val - t * (tps t P).S.val) := by
    intro t ht
    rw [fG, fS, fH, (v t P ht).2.2.2.2, v0.2.2.2.2]; ring
  have dH : HasDerivAt (fun t => (f t P).H.val) (f T P).Cp.val T := by
    have hid := hasDerivAt_id' T
    have h := (dG.fun_add (hid.fun_mul dS)).fun_add ((hH.fun_sub hG).fun_sub (hid.fun_mul hS))
    refine (h.congr_of_eventuallyEq (hev.mono fun t ht => hoff t ht)).congr_deriv ?_
    field_simp
    ring
  have dP : HasDerivAt (fun p => (f T p).G.val)
      (((f T P).V.val + (1 - x) * (M - 18.01528) / ((wp T P).density.val / 1000) / 10) / 1e5) P := by
    have h := ((hP.sub_const (adAt (TS.temperature 298.15) x a b wr igr wpr).G.val).fun_add
      (adG_P (x := x) (a := a) (b := b) hT hρ hρP hgp)).add_const
      ((adAt (TS.temperature 298.15) x a b wr igr wpr).S.val * (T - 298.15))
    refine (h.congr_of_eventuallyEq (hevP.mono fun p hp => ?_)).congr_deriv ?_
    · simp only [fG, (v T p hp).1]
    · rw [fV, (v T P h0).2.2.2.1]; ring
  refine ⟨f, hf, dG, dS, dH, ?_, dP, fun hM => ⟨dG, dH, dS, ?_, fU T P, fA T P⟩⟩
  · rw [hoff T h0]; ring
  · refine dP.congr_deriv ?_
    rw [hM]; ring

/-- A ThermoScalar with the value `v`, for examples. -/
noncomputable def exTS (v : ℝ) : TS := ⟨v, 0, 0, 0, .read⟩

/-- Water for the example: ρ = 1000 exp(-(T - 300)/1000), G = P V, molar mass `M`. -/
noncomputable def exWater (M : ℝ) (t p : ℝ) : TPS :=
  { TPS.default with
    G := exTS (M * p / 1e6 * Real.exp ((t - 300) / 1000))
    S := exTS (-(M * p / 1e6 * (Real.exp ((t - 300) / 1000) / 1000)))
    Cp := exTS (-(t * (M * p / 1e6 * (Real.exp ((t - 300) / 1000) / 1000 / 1000)))) }

/-- Density of the example water. -/
noncomputable def exSolv (t _p : ℝ) : Solv := ⟨exTS (1000 * Real.exp (-((t - 300) / 1000))), exTS (1 / 1000), exTS 0, exTS 0⟩

/-- Properties of a gas with constant heat capacity. -/
noncomputable def exGas (t _p : ℝ) : TPS :=
  { TPS.default with G := exTS (30 * t - t * (30 * Real.log t)), H := exTS (30 * t), S := exTS (30 * Real.log t), Cp := exTS 30 }

lemma exWater_ok (M T P : ℝ) (hT : 0 < T) : ADWater M (exWater M) (fun _ _ => TPS.default) exSolv T P := by
  have hid : HasDerivAt (fun t : ℝ => (t - 300) / 1000) (1 / 1000) T := ((hasDerivAt_id' T).sub_const 300).div_const 1000
  refine ⟨⟨?_, ?_, ?_, ?_⟩, ?_, ?_, ?_, ?_, ?_, ?_⟩ <;> simp only [exWater, exSolv, exTS, TPS.default, TS.val_default]
  · positivity
  · exact (hid.fun_neg.exp.const_mul 1000).congr_deriv (by ring)
  · exact (hasDerivAt_const _ _).congr_deriv (by ring)
  · exact hasDerivAt_const _ _
  · exact (hid.exp.const_mul _).congr_deriv (by ring)
  · refine ((hid.exp.div_const 1000).const_mul _).fun_neg.congr_deriv ?_
    field_simp
  · exact (hasDerivAt_const _ _).congr_deriv (by norm_num)
  · exact (hasDerivAt_const _ _).congr_deriv (by simp)
  · refine ((((hasDerivAt_id' P).const_mul M).div_const 1e6).mul_const _).congr_deriv ?_
    rw [Real.exp_neg]
    field_simp
    norm_num
    ring
  · exact hasDerivAt_const _ _

lemma exGas_ok (T P : ℝ) (hT : 0 < T) :
    HasDerivAt (fun t => (exGas t P).G.val) (-(exGas T P).S.val) T ∧ HasDerivAt (fun t => (exGas t P).S.val) ((exGas T P).Cp.val / T) T ∧
    HasDerivAt (fun t => (exGas t P).H.val) (exGas T P).Cp.val T ∧ HasDerivAt (fun p => (exGas T p).G.val) 0 P := by
  have hid := hasDerivAt_id' T
  have hl := (Real.hasDerivAt_log hT.ne').const_mul 30
  refine ⟨?_, ?_, ?_, ?_⟩ <;> simp only [exGas, exTS]
  · refine ((hid.const_mul 30).fun_sub (hid.fun_mul hl)).congr_deriv ?_
    field_simp; ring
  · exact hl.congr_deriv (by ring)
  · exact (hid.const_mul 30).congr_deriv (by ring)
  · exact hasDerivAt_const _ _

/-- The hypotheses of `C96_partial` hold for the example water and gas at 400 K and 200 bar. -/
example : ∃ f : ℝ → ℝ → TPS, (∀ t p, akinfievDiamondEntry t p [-0.1, -8, 11] (exGas t p) (exWater 18.01528 t p) TPS.default (exSolv t p)
      (exWater 18.01528 298.15 1e5) TPS.default (exSolv 298.15 1e5) = .ok (f t p)) ∧ ConsistentS f 400 2e7 := by
  have g := exGas_ok 400 2e7 (by norm_num)
  obtain ⟨f, hf, _, _, _, _, _, h⟩ := C96_partial 18.01528 400 2e7 (-0.1) (-8) 11 [] exGas (exWater 18.01528) (fun _ _ => TPS.default) exSolv
    (exWater 18.01528 298.15 1e5) TPS.default (exSolv 298.15 1e5) (by norm_num) (exWater_ok _ _ _ (by norm_num))
    (by simp only [exSolv, exTS]; positivity) g.1 g.2.1 g.2.2.1 g.2.2.2
  exact ⟨f, hf, h rfl⟩

/-- **C96** is violated with the water of the code, whose volumes are computed with the molar mass 18.015268 g/mol: for every solute with ξ ≠ 1
and at every state, the reported volume is not dG/dP.  (The relative difference is 7·10⁻⁷ of the water term.) -/
theorem C96_refuted (T P x a b : ℝ) (rest : List ℝ) (tps w ig : ℝ → ℝ → TPS) (wp : ℝ → ℝ → Solv) (wr igr : TPS) (wpr : Solv)
    (hT : 0 < T) (hw : ADWater (1000 * waterMolarMass) w ig wp T P) (hr : 0 < wpr.density.val) (hx : x ≠ 1)
    (hG : HasDerivAt (fun t => (tps t P).G.val) (-(tps T P).S.val) T)
    (hS : HasDerivAt (fun t => (tps t P).S.val) ((tps T P).Cp.val / T) T)
    (hH : HasDerivAt (fun t => (tps t P).H.val) (tps T P).Cp.val T)
    (hP : HasDerivAt (fun p => (tps T p).G.val) 0 P) (f : ℝ → ℝ → TPS)
    (hf : ∀ t p, akinfievDiamondEntry t p (x :: a :: b :: rest) (tps t p) (w t p) (ig t p) (wp t p) wr igr wpr = .ok (f t p)) :
    ¬ ConsistentS f T P := by
  intro hc
  obtain ⟨f', hf', _, _, _, _, hV, _⟩ := C96_partial _ T P x a b rest tps w ig wp wr igr wpr hT hw hr hG hS hH hP
  obtain rfl : f = f' := by
    funext t p
    have := (hf t p).symm.trans (hf' t p)
    exact Res.ok.inj this
  have := hc.volume.unique hV
  have hρ := hw.solv.pos
  have h0 : (1 - x) * (1000 * waterMolarMass - 18.01528) / ((wp T P).density.val / 1000) / 10 = 0 := by
    field_simp at this ⊢
    linarith
  have h1 : (1 - x) * (1000 * waterMolarMass - 18.01528) = 0 := by
    field_simp at h0
    linarith
  rcases mul_eq_zero.mp h1 with h | h
  · exact hx (by linarith)
  · norm_num [waterMolarMass] at h

/-- The hypotheses of `C96_refuted` hold for the example water. -/
example : ∃ f : ℝ → ℝ → TPS, (∀ t p, akinfievDiamondEntry t p [-0.1, -8, 11] (exGas t p) (exWater (1000 * waterMolarMass) t p) TPS.default
      (exSolv t p) (exWater (1000 * waterMolarMass) 298.15 1e5) TPS.default (exSolv 298.15 1e5) = .ok (f t p)) ∧ ¬ ConsistentS f 400 2e7 := by
  have g := exGas_ok 400 2e7 (by norm_num)
  choose f hf _ using fun t p => ad_vals t p (-0.1) (-8) 11 [] (exGas t p) (exWater (1000 * waterMolarMass) t p) TPS.default (exSolv t p)
    (exWater (1000 * waterMolarMass) 298.15 1e5) TPS.default (exSolv 298.15 1e5)
  refine ⟨f, hf, C96_refuted 400 2e7 (-0.1) (-8) 11 [] exGas (exWater (1000 * waterMolarMass)) (fun _ _ => TPS.default) exSolv
    (exWater (1000 * waterMolarMass) 298.15 1e5) TPS.default (exSolv 298.15 1e5) (by norm_num) (exWater_ok _ _ _ (by norm_num))
    (by simp only [exSolv, exTS]; positivity) (by norm_num) g.1 g.2.1 g.2.2.1 g.2.2.2 f hf⟩

/-! ### Anderson et al. (1991) -/

lemma an91_vals (T P T298 : ℝ) (ref : TPS) (wpr wp : Solv) :
    let r := anderson91Entry T P T298 ref wpr wp
    let K := ref.Cp.val / (T298 * wpr.dAldT.val)
    let L := Real.log (wp.density.val / 1000 / (wpr.density.val / 1000))
    r.G.val = ref.G.val - ref.S.val * (T - T298) + K * (wpr.Alpha.val * (T - T298) + L) ∧
    r.H.val = ref.H.val + K * (wpr.Alpha.val * (T - T298) + L) ∧
    r.S.val = ref.S.val - K * (wpr.Alpha.val - wp.Alpha.val) ∧
    r.Cp.val = T * (K * wp.dAldT.val) ∧
    r.V.val = ref.V.val ∧
    r.U.val = r.H.val - P / 1e5 * r.V.val ∧
    r.A.val = r.U.val - T * r.S.val := by
  dsimp only
  refine ⟨?_, ?_, ?_, ?_, ?_, ?_, ?_⟩ <;>
  simp only [anderson91Entry, anderson91, TS.op_val_add, TS.op_val_addL, TS.op_val_sub, TS.op_val_subL, TS.op_val_subR, TS.op_val_mul,
    TS.op_val_mulL, TS.op_val_mulR, TS.op_val_div, TS.op_val_divR, TS.val_temperature, TS.val_log, TS.val_ofVal, val_pbar] <;> ring

lemma ratio_log {ρ : ℝ → ℝ} {ρ' x c : ℝ} (h : HasDerivAt ρ ρ' x) (h0 : 0 < ρ x) (hc : 0 < c) :
    HasDerivAt (fun y => Real.log (ρ y / 1000 / (c / 1000))) (ρ' / ρ x) x := by
  refine (((h.div_const 1000).div_const (c / 1000)).log (by positivity)).congr_deriv ?_
  field_simp

/-- **C97, Anderson et al., the part that holds.**  At every state of a smooth solvent: dG/dT = -S and dS/dT = Cp/T, U and A are those of the
definition, and at the reference state the reference properties are returned.  Missing: dH/dT = Cp and dG/dP = V, which fail (below). -/
theorem C97_an91_partial (T P T298 : ℝ) (ref : TPS) (wpr : Solv) (wp : ℝ → ℝ → Solv) (h : SmoothSolvent wp T P) (hT : T ≠ 0)
    (hr : 0 < wpr.density.val) :
    let f := fun t p => anderson91Entry t p T298 ref wpr (wp t p)
    HasDerivAt (fun t => (f t P).G.val) (-(f T P).S.val) T ∧
    HasDerivAt (fun t => (f t P).S.val) ((f T P).Cp.val / T) T ∧
    (f T P).U.val = (f T P).H.val - P / 1e5 * (f T P).V.val ∧
    (f T P).A.val = (f T P).U.val - T * (f T P).S.val ∧
    (wp T P = wpr → T = T298 → wpr.dAldT.val ≠ 0 →
      (f T P).G.val = ref.G.val ∧ (f T P).H.val = ref.H.val ∧ (f T P).S.val = ref.S.val ∧ (f T P).Cp.val = ref.Cp.val ∧
      (f T P).V.val = ref.V.val) := by
  have v := fun t p => an91_vals t p T298 ref wpr (wp t p)
  dsimp only at v ⊢
  have hl := ratio_log h.expansion h.pos hr
  have hid := hasDerivAt_id' T
  have hρ := h.pos
  refine ⟨?_, ?_, (v T P).2.2.2.2.2.1, (v T P).2.2.2.2.2.2, ?_⟩
  · simp only [(v _ _).1, (v _ _).2.2.1]
    refine ((((hid.sub_const T298).const_mul ref.S.val).const_sub ref.G.val).fun_add
      ((((hid.sub_const T298).const_mul wpr.Alpha.val).fun_add hl).const_mul _)).congr_deriv ?_
    field_simp
    ring
  · simp only [(v _ _).2.2.1, (v _ _).2.2.2.1]
    refine (((h.expansionT.const_sub wpr.Alpha.val).const_mul _).const_sub ref.S.val).congr_deriv ?_
    field_simp
  · intro h1 h2 h3
    have hr' : wpr.density.val ≠ 0 := hr.ne'
    obtain ⟨v1, v2, v3, v4, v5, -⟩ := v T P
    rw [v1, v2, v3, v4, v5, h1, h2]
    have h4 : T298 ≠ 0 := h2 ▸ hT
    rw [div_self (by positivity)]
    refine ⟨by simp, by simp, by simp, ?_, rfl⟩
    field_simp

/-- **C97** is violated by the model of Anderson et al.: wherever the entropy differs from its reference value, H is not the G + T S of the
reference state carried along: the change of G is not that of H - T S. -/
theorem C97_an91_refuted (T P T298 : ℝ) (ref : TPS) (wpr wp : Solv) (hT : T ≠ 0)
    (hS : (anderson91Entry T P T298 ref wpr wp).S.val ≠ ref.S.val) :
    let r := anderson91Entry T P T298 ref wpr wp
    r.G.val - ref.G.val ≠ (r.H.val - ref.H.val) - (T * r.S.val - T298 * ref.S.val) := by
  have v := an91_vals T P T298 ref wpr wp
  dsimp only at v ⊢
  intro h
  rw [v.1, v.2.1] at h
  have : T * ((anderson91Entry T P T298 ref wpr wp).S.val - ref.S.val) = 0 := by linarith
  rcases mul_eq_zero.mp this with h | h
  · exact hT h
  · exact hS (by linarith)

/-- **C97** is violated by the model of Anderson et al.: the reported volume is constant, dG/dP is proportional to the compressibility of
the solvent. -/
theorem C97_an91_volume_refuted (T P T298 : ℝ) (ref : TPS) (wpr : Solv) (wp : ℝ → ℝ → Solv) (h : SmoothSolvent wp T P)
    (hr : 0 < wpr.density.val) (hV : ref.V.val ≠ ref.Cp.val / (T298 * wpr.dAldT.val) * (wp T P).Beta.val * 1e5) :
    let f := fun t p => anderson91Entry t p T298 ref wpr (wp t p)
    ¬ HasDerivAt (fun p => (f T p).G.val) ((f T P).V.val / 1e5) P := by
  have v := fun t p => an91_vals t p T298 ref wpr (wp t p)
  dsimp only at v ⊢
  simp only [(v _ _).1, (v _ _).2.2.2.2.1]
  intro hd
  have hl := ratio_log h.compression h.pos hr
  have := hd.unique (((hl.const_add (wpr.Alpha.val * (T - T298))).const_mul (ref.Cp.val / (T298 * wpr.dAldT.val))).const_add
    (ref.G.val - ref.S.val * (T - T298)))
  have hρ := h.pos
  rw [mul_div_assoc, div_self hρ.ne'] at this
  apply hV
  field_simp at this ⊢
  linarith

/-! ### Holland and Powell (1998) -/

/-- T' of the source. -/
noncomputable def hpT' (T : ℝ) : ℝ := if T ≤ 500 then T else 500

lemma hp98Tprime_eq (T : ℝ) : hp98Tprime (TS.temperature T) = hpT' T := by
  unfold hp98Tprime hpT'
  split_ifs <;> first | rfl | contradiction

lemma hp98_vals (T P T298 : ℝ) (ref : TPS) (b : ℝ) (rest : List ℝ) (wpr wp : Solv) :
    ∃ r, hp98Entry T P T298 ref (b :: rest) wpr wp = .ok r ∧
    let K := (ref.Cp.val - T298 * b) / (T298 * wpr.dAldT.val)
    let L := Real.log (wp.density.val / 1000 / (wpr.density.val / 1000))
    let X := b * (T298 * T - T298 ^ 2 / 2 - T ^ 2 / 2)
      + K * (wpr.Alpha.val * (T - T298) - wpr.Beta.val * 1e5 * (P / 1e5) + T / hpT' T * L)
    r.G.val = ref.G.val - (T - T298) * ref.S.val + P / 1e5 * ref.V.val + X ∧
    r.H.val = ref.H.val + P / 1e5 * ref.V.val + X ∧
    r.S.val = ref.S.val - b * (T298 - T) - K * (wpr.Alpha.val - L / hpT' T - T / hpT' T * wp.Alpha.val) ∧
    r.Cp.val = T * (b + K * (T * wp.dAldT.val) / hpT' T) ∧
    r.V.val = ref.V.val + K * (-(wpr.Beta.val * 1e5) + T / hpT' T * (wp.Beta.val * 1e5)) ∧
    r.U.val = r.H.val - P / 1e5 * r.V.val ∧
    r.A.val = r.U.val - T * r.S.val := by
  refine ⟨_, rfl, ?_⟩
  dsimp only
  refine ⟨?_, ?_, ?_, ?_, ?_, ?_, ?_⟩ <;>
  simp only [TS.op_val_add, TS.op_val_addL, TS.op_val_sub, TS.op_val_subL, TS.op_val_subR, TS.op_val_mul,
    TS.op_val_mulL, TS.op_val_mulR, TS.op_val_div, TS.op_val_divR, TS.val_temperature, TS.val_log, TS.val_powR, Real.rpow_ofNat,
    val_pbar, hp98Tprime_eq] <;> ring

/-- **C97, Holland and Powell, the part that holds.**  At every state of a smooth solvent with T > 0: dG/dP = V, and U and A are those of the
definition.  Above 500 K, dS/dT = Cp/T, and -dG/dT differs from S by exactly 2 K ln(ρ/ρ₂₉₈)/500 (the term has the wrong sign in S).  Below
500 K, -dG/dT differs from S by exactly K ln(ρ/ρ₂₉₈)/T (the term should be absent), and Cp is T times the derivative of -dG/dT, not of S.
Missing: dG/dT = -S and dH/dT = Cp, which fail (below). -/
theorem C97_hp98_partial (T P T298 : ℝ) (ref : TPS) (b : ℝ) (rest : List ℝ) (wpr : Solv) (wp : ℝ → ℝ → Solv) (h : SmoothSolvent wp T P)
    (hT : 0 < T) (hr : 0 < wpr.density.val) :
    ∃ f : ℝ → ℝ → TPS, (∀ t p, hp98Entry t p T298 ref (b :: rest) wpr (wp t p) = .ok (f t p)) ∧
      HasDerivAt (fun p => (f T p).G.val) ((f T P).V.val / 1e5) P ∧
      (f T P).U.val = (f T P).H.val - P / 1e5 * (f T P).V.val ∧
      (f T P).A.val = (f T P).U.val - T * (f T P).S.val ∧
      (500 < T → HasDerivAt (fun t => (f t P).G.val) (-((f T P).S.val - 2 * ((ref.Cp.val - T298 * b) / (T298 * wpr.dAldT.val)
            * Real.log (((wp T P).density.val / 1000) / (wpr.density.val / 1000)) / 500))) T ∧
        HasDerivAt (fun t => (f t P).S.val) ((f T P).Cp.val / T) T) ∧
      (T < 500 → ∃ s : ℝ → ℝ, (∀ t, s t = (f t P).S.val - (ref.Cp.val - T298 * b) / (T298 * wpr.dAldT.val)
            * Real.log (((wp t P).density.val / 1000) / (wpr.density.val / 1000)) / t) ∧
        HasDerivAt (fun t => (f t P).G.val) (-s T) T ∧ HasDerivAt s ((f T P).Cp.val / T) T) := by
  choose f hf fG fH fS fCp fV fU fA using fun t p => hp98_vals t p T298 ref b rest wpr (wp t p)
  have hlT := (ratio_log h.expansion h.pos hr).congr_deriv
    (show _ = -(wp T P).Alpha.val by rw [neg_div, mul_div_assoc, div_self h.pos.ne', mul_one])
  have hlP := (ratio_log h.compression h.pos hr).congr_deriv
    (show _ = (wp T P).Beta.val by rw [mul_div_assoc, div_self h.pos.ne', mul_one])
  have hT' : hpT' T ≠ 0 := by unfold hpT'; split <;> positivity
  have hid := hasDerivAt_id' T
  refine ⟨f, hf, ?_, fU T P, fA T P, ?_, ?_⟩
  · simp only [fG, fV]
    have hp : HasDerivAt (fun p : ℝ => p / 1e5) (1 / 1e5) P := (hasDerivAt_id' P).div_const _
    refine (((hp.mul_const ref.V.val).const_add (ref.G.val - (T - T298) * ref.S.val)).fun_add
      (((((hp.const_mul (wpr.Beta.val * 1e5)).const_sub (wpr.Alpha.val * (T - T298))).fun_add
        (hlP.const_mul (T / hpT' T))).const_mul _).const_add _)).congr_deriv ?_
    ring
  · intro h5
    have hev : ∀ᶠ t in nhds T, hpT' t = 500 := (lt_mem_nhds h5).mono fun t ht => if_neg (not_le.mpr ht)
    have e5 : hpT' T = 500 := hev.self_of_nhds
    constructor
    · have := ((((hid.sub_const T298).mul_const ref.S.val).const_sub ref.G.val).add_const (P / 1e5 * ref.V.val)).fun_add
        (((((hid.const_mul T298).sub_const (T298 ^ 2 / 2)).fun_sub ((hid.fun_pow 2).div_const 2)).const_mul b).fun_add
        (((((hid.sub_const T298).const_mul wpr.Alpha.val).sub_const (wpr.Beta.val * 1e5 * (P / 1e5))).fun_add
          ((hid.div_const 500).fun_mul hlT)).const_mul ((ref.Cp.val - T298 * b) / (T298 * wpr.dAldT.val))))
      refine (this.congr_of_eventuallyEq (hev.mono fun t ht => ?_)).congr_deriv ?_
      · simp only [fG, ht]
      · rw [fS, e5]
        simp only [Nat.cast_ofNat, Nat.reduceSub, pow_one]
        generalize Real.log ((wp T P).density.val / 1000 / (wpr.density.val / 1000)) = L
        ring
    · have := (((hid.const_sub T298).const_mul b).const_sub ref.S.val).fun_sub
        (((((hlT.div_const 500).const_sub wpr.Alpha.val).fun_sub ((hid.div_const 500).fun_mul h.expansionT))).const_mul
          ((ref.Cp.val - T298 * b) / (T298 * wpr.dAldT.val)))
      refine (this.congr_of_eventuallyEq (hev.mono fun t ht => ?_)).congr_deriv ?_
      · simp only [fS, ht]
      · rw [fCp, e5]
        rw [mul_div_cancel_left₀ _ hT.ne']
        ring
  · intro h5
    have hev : ∀ᶠ t in nhds T, t ≠ 0 ∧ hpT' t = t :=
      ((gt_mem_nhds h5).and (lt_mem_nhds hT)).mono fun t ht => ⟨ht.2.ne', if_pos ht.1.le⟩
    have e5 : hpT' T = T := hev.self_of_nhds.2
    refine ⟨_, fun _ => rfl, ?_, ?_⟩
    · have := ((((hid.sub_const T298).mul_const ref.S.val).const_sub ref.G.val).add_const (P / 1e5 * ref.V.val)).fun_add
        (((((hid.const_mul T298).sub_const (T298 ^ 2 / 2)).fun_sub ((hid.fun_pow 2).div_const 2)).const_mul b).fun_add
        (((((hid.sub_const T298).const_mul wpr.Alpha.val).sub_const (wpr.Beta.val * 1e5 * (P / 1e5))).fun_add
          hlT).const_mul ((ref.Cp.val - T298 * b) / (T298 * wpr.dAldT.val))))
      refine (this.congr_of_eventuallyEq (hev.mono fun t ht => ?_)).congr_deriv ?_
      · simp only [fG, ht.2, div_self ht.1, one_mul]
      · rw [fS, e5]
        rw [div_self hT.ne']
        simp only [Nat.cast_ofNat, Nat.reduceSub, pow_one]
        ring
    · have := (((hid.const_sub T298).const_mul b).const_sub ref.S.val).fun_sub
        ((h.expansionT.const_sub wpr.Alpha.val).const_mul ((ref.Cp.val - T298 * b) / (T298 * wpr.dAldT.val)))
      refine (this.congr_of_eventuallyEq (hev.mono fun t ht => ?_)).congr_deriv ?_
      · simp only [fS, ht.2, div_self ht.1]; ring
      · rw [fCp, e5]
        rw [mul_div_cancel_left₀ _ hT.ne']
        field_simp
        ring

/-- **C97** is violated by the model of Holland and Powell: wherever the density differs from the reference density (and the factor is not
zero) S is not -dG/dT. -/
theorem C97_hp98_refuted (T P T298 : ℝ) (ref : TPS) (b : ℝ) (rest : List ℝ) (wpr : Solv) (wp : ℝ → ℝ → Solv) (h : SmoothSolvent wp T P)
    (hT : 0 < T) (h5 : T ≠ 500) (hr : 0 < wpr.density.val) (hρ : (wp T P).density.val ≠ wpr.density.val)
    (hK : (ref.Cp.val - T298 * b) / (T298 * wpr.dAldT.val) ≠ 0) (f : ℝ → ℝ → TPS)
    (hf : ∀ t p, hp98Entry t p T298 ref (b :: rest) wpr (wp t p) = .ok (f t p)) :
    ¬ HasDerivAt (fun t => (f t P).G.val) (-(f T P).S.val) T := by
  intro hd
  obtain ⟨f', hf', _, _, _, h1, h2⟩ := C97_hp98_partial T P T298 ref b rest wpr wp h hT hr
  obtain rfl : f = f' := by
    funext t p
    exact Res.ok.inj ((hf t p).symm.trans (hf' t p))
  have hpos := h.pos
  have hlog : Real.log (((wp T P).density.val / 1000) / (wpr.density.val / 1000)) ≠ 0 := by
    apply Real.log_ne_zero_of_pos_of_ne_one (by positivity)
    intro h1
    apply hρ
    field_simp at h1
    exact h1
  have hX := mul_ne_zero hK hlog
  rcases lt_or_gt_of_ne h5 with h5 | h5
  · obtain ⟨s, hs, hG, -⟩ := h2 h5
    have := hd.unique hG
    rw [hs T] at this
    have h0 : (ref.Cp.val - T298 * b) / (T298 * wpr.dAldT.val)
        * Real.log (((wp T P).density.val / 1000) / (wpr.density.val / 1000)) / T = 0 := by linarith
    exact (div_ne_zero hX hT.ne') h0
  · have := hd.unique (h1 h5).1
    have h0 : (ref.Cp.val - T298 * b) / (T298 * wpr.dAldT.val)
        * Real.log (((wp T P).density.val / 1000) / (wpr.density.val / 1000)) / 500 = 0 := by linarith
    exact (div_ne_zero hX (by norm_num)) h0

/-- **C97** is violated by the model of Holland and Powell at all temperatures: the change of G is not that of H - T S wherever S differs from
its reference value. -/
theorem C97_hp98_enthalpy_refuted (T P T298 : ℝ) (ref : TPS) (b : ℝ) (rest : List ℝ) (wpr wp : Solv) (hT : T ≠ 0) (r : TPS)
    (hf : hp98Entry T P T298 ref (b :: rest) wpr wp = .ok r) (hS : r.S.val ≠ ref.S.val) :
    r.G.val - ref.G.val ≠ (r.H.val - ref.H.val) - (T * r.S.val - T298 * ref.S.val) := by
  obtain ⟨r', hr', v1, v2, -⟩ := hp98_vals T P T298 ref b rest wpr wp
  obtain rfl : r = r' := Res.ok.inj (hf.symm.trans hr')
  intro h
  rw [v1, v2] at h
  have : T * (r.S.val - ref.S.val) = 0 := by linarith
  rcases mul_eq_zero.mp this with h | h
  · exact hT h
  · exact hS (by linarith)

/-- A solvent with compressibility and changing expansivity for the examples: ρ = 1000 exp(-10⁻⁵ (T-300)² + 10⁻⁹ P). -/
noncomputable def exSolv2 (t p : ℝ) : Solv :=
  ⟨exTS (1000 * Real.exp (-(1e-5 * (t - 300) ^ 2) + 1e-9 * p)), exTS (2e-5 * (t - 300)), exTS 1e-9, exTS 2e-5⟩

lemma exSolv2_ok (T P : ℝ) : SmoothSolvent exSolv2 T P := by
  have hq : HasDerivAt (fun t : ℝ => (t - 300) ^ 2) (2 * (T - 300)) T :=
    (((hasDerivAt_id' T).sub_const 300).fun_pow 2).congr_deriv (by norm_num)
  refine ⟨?_, ?_, ?_, ?_⟩ <;> simp only [exSolv2, exTS]
  · positivity
  · refine (((hq.const_mul 1e-5).fun_neg.add_const (1e-9 * P)).exp.const_mul 1000).congr_deriv ?_
    ring
  · refine ((((hasDerivAt_id' P).const_mul 1e-9).const_add (-(1e-5 * (T - 300) ^ 2))).exp.const_mul 1000).congr_deriv ?_
    ring
  · exact (((hasDerivAt_id' T).sub_const 300).const_mul 2e-5).congr_deriv (by ring)

/-- Reference properties for the examples. -/
noncomputable def exRef : TPS :=
  { TPS.default with G := exTS (-100), H := exTS (-200), S := exTS 50, Cp := exTS 80, V := exTS 2 }

lemma exSolv2_ref : (exSolv2 300 0).density.val = 1000 := by simp [exSolv2, exTS]

/-- The hypotheses of the theorems on the model of Anderson et al. hold at 400 K and 100 bar; H is not G + T S there, V is not dG/dP. -/
example :
    let f := fun t p => anderson91Entry t p 300 exRef (exSolv2 300 0) (exSolv2 t p)
    HasDerivAt (fun t => (f t 1e7).G.val) (-(f 400 1e7).S.val) 400 ∧
    (f 400 1e7).G.val - exRef.G.val ≠ ((f 400 1e7).H.val - exRef.H.val) - (400 * (f 400 1e7).S.val - 300 * exRef.S.val) ∧
    ¬ HasDerivAt (fun p => (f 400 p).G.val) ((f 400 1e7).V.val / 1e5) 1e7 := by
  have hr : 0 < (exSolv2 300 0).density.val := by rw [exSolv2_ref]; norm_num
  refine ⟨(C97_an91_partial 400 1e7 300 exRef (exSolv2 300 0) exSolv2 (exSolv2_ok _ _) (by norm_num) hr).1,
    C97_an91_refuted 400 1e7 300 exRef _ _ (by norm_num) ?_,
    C97_an91_volume_refuted 400 1e7 300 exRef (exSolv2 300 0) exSolv2 (exSolv2_ok _ _) hr ?_⟩
  · rw [(an91_vals _ _ _ _ _ _).2.2.1]
    norm_num [exRef, exSolv2, exTS]
  · norm_num [exRef, exSolv2, exTS]

/-- The hypotheses of the theorems on the model of Holland and Powell hold at 400 K and at 600 K; S is not -dG/dT there. -/
example : ∃ f : ℝ → ℝ → TPS, (∀ t p, hp98Entry t p 300 exRef [0.1] (exSolv2 300 0) (exSolv2 t p) = .ok (f t p)) ∧
    HasDerivAt (fun p => (f 400 p).G.val) ((f 400 1e7).V.val / 1e5) 1e7 ∧
    ¬ HasDerivAt (fun t => (f t 1e7).G.val) (-(f 400 1e7).S.val) 400 ∧
    ¬ HasDerivAt (fun t => (f t 1e7).G.val) (-(f 600 1e7).S.val) 600 := by
  have hr : 0 < (exSolv2 300 0).density.val := by rw [exSolv2_ref]; norm_num
  obtain ⟨f, hf, hV, -⟩ := C97_hp98_partial 400 1e7 300 exRef 0.1 [] (exSolv2 300 0) exSolv2 (exSolv2_ok _ _) (by norm_num) hr
  have hK : (exRef.Cp.val - 300 * 0.1) / (300 * (exSolv2 300 0).dAldT.val) ≠ 0 := by norm_num [exRef, exSolv2, exTS]
  have hne : ∀ T : ℝ, T = 400 ∨ T = 600 → (exSolv2 T 1e7).density.val ≠ (exSolv2 300 0).density.val := by
    intro T hT
    rw [exSolv2_ref]
    simp only [exSolv2, exTS]
    intro h
    have h1 : Real.exp (-(1e-5 * (T - 300) ^ 2) + 1e-9 * 1e7) = 1 := by linarith
    rw [Real.exp_eq_one_iff] at h1
    rcases hT with rfl | rfl <;> norm_num at h1
  exact ⟨f, hf, hV,
    C97_hp98_refuted 400 1e7 300 exRef 0.1 [] _ exSolv2 (exSolv2_ok _ _) (by norm_num) (by norm_num) hr (hne _ (.inl rfl)) hK f hf,
    C97_hp98_refuted 600 1e7 300 exRef 0.1 [] _ exSolv2 (exSolv2_ok _ _) (by norm_num) (by norm_num) hr (hne _ (.inr rfl)) hK f hf⟩

/-- The entropy at 500 K of the example differs from the reference entropy, as `C97_hp98_enthalpy_refuted` requires. -/
example : ∃ r, hp98Entry 500 0 300 exRef [0.1] (exSolv2 300 0) (exSolv2 300 0) = .ok r ∧ r.S.val ≠ exRef.S.val := by
  obtain ⟨r, hr, -, -, hS, -⟩ := hp98_vals 500 0 300 exRef 0.1 [] (exSolv2 300 0) (exSolv2 300 0)
  refine ⟨r, hr, ?_⟩
  rw [hS]
  have : Real.log ((exSolv2 300 0).density.val / 1000 / ((exSolv2 300 0).density.val / 1000)) = 0 := by
    rw [exSolv2_ref]; norm_num
  rw [this]
  norm_num [exRef, exSolv2, exTS, hpT']

/-! ### C105: what the solute models read (see also `Props/GasEntry.lean`) -/

/-- **C105** (Holland-Powell and Akinfiev-Diamond, partial): a record without coefficients raises an error; one coefficient (three for
Akinfiev-Diamond) suffices. -/
theorem C105_solutes_partial (T P T298 : ℝ) (ref tps wtp wigp wtpr wigpr : TPS) (wpr wp : Solv) (coef par : List ℝ) :
    (hp98Entry T P T298 ref [] wpr wp = .throw ∧ akinfievDiamondEntry T P [] tps wtp wigp wp wtpr wigpr wpr = .throw) ∧
    (1 ≤ coef.length → ∃ r, hp98Entry T P T298 ref coef wpr wp = .ok r) ∧
    (3 ≤ par.length → ∃ r, akinfievDiamondEntry T P par tps wtp wigp wp wtpr wigpr wpr = .ok r) := by
  refine ⟨⟨rfl, rfl⟩, fun h => ?_, fun h => ?_⟩
  · rcases coef with _ | ⟨b, l⟩
    · simp at h
    · exact ⟨_, rfl⟩
  · rcases par with _ | ⟨a, _ | ⟨b, _ | ⟨c, l⟩⟩⟩
    · simp at h
    · simp at h
    · simp at h
    · exact ⟨_, rfl⟩

example : ∃ r, akinfievDiamondEntry 400 1e7 [-0.1, 10, -3, 7] exRef exRef exRef (exSolv2 400 1e7) exRef exRef (exSolv2 300 0) = .ok r :=
  (C105_solutes_partial 400 1e7 300 exRef exRef exRef exRef exRef exRef (exSolv2 300 0) (exSolv2 400 1e7) [] [-0.1, 10, -3, 7]).2.2 (by simp)

/-- **C105** is violated: one or two coefficients pass the check of the Akinfiev-Diamond model (the vector is not empty), which then reads
past the end of the vector, at every state. -/
theorem C105_ad_refuted (T P : ℝ) (tps wtp wigp wtpr wigpr : TPS) (wpr wp : Solv) (par : List ℝ) (h : par.length = 1 ∨ par.length = 2) :
    akinfievDiamondEntry T P par tps wtp wigp wp wtpr wigpr wpr = .ub := by
  rcases par with _ | ⟨a, _ | ⟨b, _ | ⟨c, l⟩⟩⟩
  · simp at h
  · rfl
  · rfl
  · simp at h

example : akinfievDiamondEntry 400 1e7 [-0.1, 10] exRef exRef exRef (exSolv2 400 1e7) exRef exRef (exSolv2 300 0) = .ub :=
  C105_ad_refuted 400 1e7 exRef exRef exRef exRef exRef _ _ [-0.1, 10] (by simp)

end ThermoFun

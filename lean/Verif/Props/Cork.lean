import Verif.Lemmas.CorkT
import Verif.Props.CorkGas

/-!
H2O and CO2 in the CORK model.
-/

namespace ThermoFun.Cork

open Topology Filter
open Gas (AB Fug EntropyOK HeatOK EntropyWrong cubic discr)

/-! ### Specification -/

/-- The modified Redlich-Kwong equation of state in kbar. -/
noncomputable def mrkPressure (a b T v : ℝ) : ℝ := 8.31451e-3 * T / (v - b) - a / (Real.sqrt T * v * (v + b))

/-- The cubic equation for the volume has a single real solution, which is not its inflexion point. -/
def Single (a b T P : ℝ) : Prop :=
  let s := 8.31451e-3 * T / P
  let A := a / (Real.sqrt T * P)
  discr (-s) (A - b * s - b ^ 2) (-A * b) < 0 ∧ cubic (-s) (A - b * s - b ^ 2) (-A * b) (s / 3) ≠ 0

/-- The parameter a of CO2. -/
noncomputable def aCO2 (T : ℝ) : ℝ := 659.8 + 0.21078 * T - 6.3976e-4 * T ^ 2

/-- The parameter a of H2O vapour up to 695 K. -/
noncomputable def aVap (T : ℝ) : ℝ :=
  if T < 673 then 1113.4 + 5.8487 * (673 - T) - 2.1370e-2 * (673 - T) ^ 2 + 6.8133e-5 * (673 - T) ^ 3
  else 1113.4 - 0.22291 * (673 - T) - 3.8022e-4 * (673 - T) ^ 2 + 1.7791e-7 * (673 - T) ^ 3

/-- The parameter a of H2O liquid up to 695 K. -/
noncomputable def aLiq (T : ℝ) : ℝ :=
  if T < 673 then 1113.4 - 0.88517 * (673 - T) + 4.53e-3 * (673 - T) ^ 2 - 1.3183e-5 * (673 - T) ^ 3
  else 1113.4 - 0.22291 * (673 - T) - 3.8022e-4 * (673 - T) ^ 2 + 1.7791e-7 * (673 - T) ^ 3

/-- The parameter a of H2O above 695 K. -/
noncomputable def aSup (T : ℝ) : ℝ := 1113.4 - 0.22291 * (T - 673) - 3.8022e-4 * (T - 673) ^ 2 + 1.7791e-7 * (T - 673) ^ 3

/-- The saturation pressure of H2O, in kbar. -/
noncomputable def pSat (T : ℝ) : ℝ := -13.627e-3 + 7.29395e-7 * T ^ 2 - 2.34622e-9 * T ^ 3 + 4.83607e-15 * T ^ 5

/-! ### Connection with the model -/

lemma co2_a (T : ℝ) : (co2AB T).a = aCO2 T := by unfold co2AB aCO2; ring
lemma gas_a (T : ℝ) : (waterGas T).a = aVap T := by
  unfold waterGas aVap below
  split_ifs <;> dsimp only <;> ring
lemma liq_a (T : ℝ) : (waterLiquid T).a = aLiq T := by
  unfold waterLiquid aLiq below
  split_ifs <;> dsimp only <;> ring
lemma sup_a (T : ℝ) : (waterSuper T).a = aSup T := by unfold waterSuper aSup; dsimp only; ring
lemma gas_b (T : ℝ) : (waterGas T).b = 1.465 := by unfold waterGas below; split_ifs <;> rfl
lemma psat_eq (T : ℝ) : waterPsat T = pSat T := by unfold waterPsat pSat; ring

lemma Single.one {a b T P : ℝ} (hT : 0 < T) (hP : 0 < P) (h : Single a b T P) : One a b T P := by
  have hs : 0 < Real.sqrt T := Real.sqrt_pos.mpr hT
  have e1 : cbM T P = -(8.31451e-3 * T / P) := by unfold cbM RR; ring
  have e2 : ccM a b T P = a / (Real.sqrt T * P) - b * (8.31451e-3 * T / P) - b ^ 2 := by unfold ccM RR; field_simp; ring
  have e3 : cdM a b T P = -(a / (Real.sqrt T * P)) * b := by unfold cdM; field_simp
  unfold Single at h
  dsimp only at h
  rw [← e1, ← e2, ← e3] at h
  obtain ⟨h1, h2⟩ := h
  rw [Gas.discr_eq] at h1
  refine ⟨by linarith, ?_⟩
  have := Gas.inflexion_eq (cbM T P) (ccM a b T P) (cdM a b T P)
  rw [show -cbM T P / 3 = 8.31451e-3 * T / P / 3 by rw [e1]; ring] at this
  intro h0
  rw [h0, mul_zero] at this
  exact h2 this

lemma Root.pressure {a b T P v : ℝ} (hT : 0 < T) (hb : 0 < b) (h : Root a b T P v) : P = mrkPressure a b T v := by
  have hs : 0 < Real.sqrt T := Real.sqrt_pos.mpr hT
  have h1 : 0 < v := by linarith [h.vb]
  have h2 : 0 < v + b := by linarith
  have e := h.eos
  unfold mrkPressure
  rw [show (8.31451e-3 : ℝ) = RR from by unfold RR; norm_num]
  rw [one_mul, zero_mul, add_zero] at e
  rw [show a / (Real.sqrt T * v * (v + b)) = a / Real.sqrt T / ((v + b) * v) by field_simp]
  exact e

lemma ok_congr {f g : ℝ → Option Fug} {T : ℝ} (h : f =ᶠ[𝓝 T] g) :
    (EntropyOK f T → EntropyOK g T) ∧ (HeatOK f T → HeatOK g T) ∧ (EntropyWrong f T → EntropyWrong g T) := by
  refine ⟨?_, ?_, ?_⟩
  · rintro ⟨F, a, b, e, r⟩
    refine ⟨F, a, b, ?_, r⟩
    filter_upwards [h, e] with t h1 h2
    rw [← h1, h2]
  · rintro ⟨F, a, e, r⟩
    refine ⟨F, a, ?_, r⟩
    filter_upwards [h, e] with t h1 h2
    rw [← h1]; exact h2
  · rintro ⟨F, a, b, c, e, r⟩
    refine ⟨F, a, b, c, ?_, r⟩
    filter_upwards [h, e] with t h1 h2
    rw [← h1, h2]

/-- From kbar to bar. -/
lemma bar_of_kbar {fug : ℝ → Option Fug} {T P b a : ℝ} {w : Vir} (hT : 0 < T) (hP : 0 < P) (hb : 0 < b)
    (h : ∃ f : ℝ → Fug, (∀ᶠ x in 𝓝 (P / 1000), fug x = some (f x) ∧ 0 < (f x).phi ∧ (f x).g = Rgas * T * Real.log (f x).phi) ∧
      (f (P / 1000)).v = mrkV a b T (P / 1000) + virV w (P / 1000) ∧
      HasDerivAt (fun x => (f x).g) (1000 * ((f (P / 1000)).v - RR * T / (P / 1000))) (P / 1000)) (ha : 0 ≤ a) (h1 : One a b T (P / 1000)) :
    ∃ f : ℝ → Fug, (∀ᶠ p in 𝓝 P, fug (p / 1000) = some (f p) ∧ (f p).g = Rgas * T * Real.log (f p).phi) ∧
      HasDerivAt (fun p => (f p).g) ((f P).v - Rgas * T / P) P ∧
      ∃ v, b < v ∧ P / 1000 = mrkPressure a b T v ∧ (f P).v = v + virV w (P / 1000) := by
  obtain ⟨f, ev, hv, hd⟩ := h
  have hc : ContinuousAt (fun p : ℝ => p / 1000) P := by fun_prop
  have r := mrk_root hT (by positivity : 0 < P / 1000) ha hb h1
  refine ⟨fun p => f (p / 1000), ?_, ?_, _, r.vb, r.pressure hT hb, hv⟩
  · filter_upwards [hc.eventually ev] with p hp
    exact ⟨hp.1, hp.2.2⟩
  · refine (HasDerivAt.comp P hd ((hasDerivAt_id' P).div_const 1000)).congr_deriv ?_
    rw [Rgas_RR]
    field_simp

/-! ### C114: volume and fugacity coefficient -/

/-- **C114** (CO2): where the cubic of the modified Redlich-Kwong equation has a single real solution, the volume is this solution plus the virial
part above 5 kbar, the residual Gibbs energy is RT ln φ, and its derivative with respect to pressure is the volume minus that of the ideal gas.
Missing from C114: the region of three real roots. -/
theorem C114_co2_partial (T P : ℝ) (k : Nat → ℝ) (hT : 0 < T) (hP : 0 < P) (ha : 0 ≤ aCO2 T) (h : Single (aCO2 T) 3.057 T (P / 1000)) :
    ∃ f : ℝ → Fug, (∀ᶠ p in 𝓝 P, fugacityPT .CO2 T p k = some (f p) ∧ (f p).g = Rgas * T * Real.log (f p).phi) ∧
      HasDerivAt (fun p => (f p).g) ((f P).v - Rgas * T / P) P ∧
      ∃ v, 3.057 < v ∧ P / 1000 = mrkPressure (aCO2 T) 3.057 T v ∧ (f P).v = v + if P / 1000 > 5 then
        (-1.78198e-1 + 2.45317e-5 * T) * Real.sqrt (P / 1000 - 5) + (5.40776e-3 - 1.59046e-6 * T) * (P / 1000 - 5) else 0 := by
  have hK : 0 < P / 1000 := by positivity
  have h1 := h.one hT hK
  rw [← co2_a] at h1 ha ⊢
  obtain ⟨f, e1, e2, v, v1, v2, v3⟩ := bar_of_kbar (fug := fun x => fugacityCO2 T x) (w := co2Vir T) hT hP (by norm_num)
    (mrk_gP (vap := true) (p := co2AB T) hT hK (by norm_num) ha h1) ha h1
  refine ⟨f, e1, e2, v, v1, v2, ?_⟩
  rw [v3]
  unfold virV co2Vir
  dsimp only
  congr 1
  split_ifs <;> ring

/-- **C114** (H2O above 695 K): the same with the virial part above 2 kbar. -/
theorem C114_steam_partial (T P : ℝ) (k : Nat → ℝ) (hT : 695 < T) (hP : 0 < P) (ha : 0 ≤ aSup T) (h : Single (aSup T) 1.465 T (P / 1000)) :
    ∃ f : ℝ → Fug, (∀ᶠ p in 𝓝 P, fugacityPT .H2O T p k = some (f p) ∧ (f p).g = Rgas * T * Real.log (f p).phi) ∧
      HasDerivAt (fun p => (f p).g) ((f P).v - Rgas * T / P) P ∧
      ∃ v, 1.465 < v ∧ P / 1000 = mrkPressure (aSup T) 1.465 T v ∧ (f P).v = v + if P / 1000 > 2 then
        -8.909e-2 * Real.sqrt (P / 1000 - 2) + 1.9853e-3 * (P / 1000 - 2) + 8.0331e-2 * Real.sqrt (Real.sqrt (P / 1000 - 2)) else 0 := by
  have hK : 0 < P / 1000 := by positivity
  have hT0 : 0 < T := by linarith
  have h1 := h.one hT0 hK
  rw [← sup_a] at h1 ha ⊢
  obtain ⟨f, e1, e2, v, v1, v2, v3⟩ := bar_of_kbar (fug := fun x => fugacityH2O T x) (w := waterVir) hT0 hP (by norm_num)
    (by
      have := mrk_gP (vap := true) (p := waterSuper T) (w := waterVir) hT0 hK (by norm_num) ha h1
      unfold fugacityH2O
      simp only [if_pos hT]
      exact this) ha h1
  refine ⟨f, e1, e2, v, v1, v2, ?_⟩
  rw [v3]
  unfold virV waterVir
  rfl

/-- **C114** (H2O vapour): the same up to 695 K below the saturation pressure. -/
theorem C114_vapour_partial (T P : ℝ) (k : Nat → ℝ) (hT0 : 0 < T) (hT : T ≤ 695) (hP : 0 < P) (hs : P / 1000 < pSat T) (ha : 0 ≤ aVap T)
    (h : Single (aVap T) 1.465 T (P / 1000)) :
    ∃ f : ℝ → Fug, (∀ᶠ p in 𝓝 P, fugacityPT .H2O T p k = some (f p) ∧ (f p).g = Rgas * T * Real.log (f p).phi) ∧
      HasDerivAt (fun p => (f p).g) ((f P).v - Rgas * T / P) P ∧
      ∃ v, 1.465 < v ∧ P / 1000 = mrkPressure (aVap T) 1.465 T v ∧ (f P).v = v + if P / 1000 > 2 then
        -8.909e-2 * Real.sqrt (P / 1000 - 2) + 1.9853e-3 * (P / 1000 - 2) + 8.0331e-2 * Real.sqrt (Real.sqrt (P / 1000 - 2)) else 0 := by
  have hK : 0 < P / 1000 := by positivity
  have h1 := h.one hT0 hK
  rw [← gas_a] at h1 ha ⊢
  obtain ⟨f, e1, e2, v, v1, v2, v3⟩ := bar_of_kbar (fug := fun x => fugacityH2O T x) (w := waterVir) hT0 hP (by norm_num)
    (by
      obtain ⟨f, ev, r⟩ := mrk_gP (vap := true) (p := waterGas T) (w := waterVir) hT0 hK (by norm_num) ha h1
      refine ⟨f, ?_, r⟩
      filter_upwards [ev, gt_mem_nhds hs] with x hx hx2
      unfold fugacityH2O
      rw [if_neg (not_lt.mpr hT), psat_eq, if_pos hx2]
      exact hx) ha h1
  refine ⟨f, e1, e2, v, v1, v2, ?_⟩
  rw [v3]
  unfold virV waterVir
  rfl

/-- **C114** (H2O liquid): the same up to 695 K above the saturation pressure, provided that the equation of state can be solved at saturation. -/
theorem C114_liquid_partial (T P : ℝ) (k : Nat → ℝ) (g1 g2 : ℝ × ℝ) (hT0 : 0 < T) (hT : T ≤ 695) (hP : 0 < P) (hs : pSat T < P / 1000)
    (ha : 0 ≤ aLiq T) (e1 : volumeFugacity true T (pSat T) (aVap T) 1.465 waterVir = some g1)
    (e2 : volumeFugacity false T (pSat T) (aLiq T) 1.465 waterVir = some g2) (h : Single (aLiq T) 1.465 T (P / 1000)) :
    ∃ f : ℝ → Fug, (∀ᶠ p in 𝓝 P, fugacityPT .H2O T p k = some (f p) ∧ (f p).g = Rgas * T * Real.log (f p).phi) ∧
      HasDerivAt (fun p => (f p).g) ((f P).v - Rgas * T / P) P ∧
      ∃ v, 1.465 < v ∧ P / 1000 = mrkPressure (aLiq T) 1.465 T v ∧ (f P).v = v + if P / 1000 > 2 then
        -8.909e-2 * Real.sqrt (P / 1000 - 2) + 1.9853e-3 * (P / 1000 - 2) + 8.0331e-2 * Real.sqrt (Real.sqrt (P / 1000 - 2)) else 0 := by
  have hK : 0 < P / 1000 := by positivity
  have h1 := h.one hT0 hK
  have hpos : ∀ {vap : Bool} {x a b : ℝ} {w : Vir} {g : ℝ × ℝ}, volumeFugacity vap T x a b w = some g → 0 < g.2 := by
    intro vap x a b w g hg
    unfold volumeFugacity at hg
    dsimp only at hg
    split at hg
    · simp at hg
    · split_ifs at hg <;> first | (cases hg; exact Real.exp_pos _) | simp at hg
  have q1 := hpos e1
  have q2 := hpos e2
  rw [← gas_a, ← psat_eq] at e1
  rw [← liq_a, ← psat_eq] at e2
  rw [← liq_a] at h1 ha ⊢
  obtain ⟨f, e1, e2, v, v1, v2, v3⟩ := bar_of_kbar (fug := fun x => fugacityH2O T x) (w := waterVir) hT0 hP (by norm_num)
    (by
      obtain ⟨f, ev, hv, hd⟩ := mrk_gP (vap := false) (p := waterLiquid T) (w := waterVir) hT0 hK (by norm_num) ha h1
      refine ⟨fun x => mrkProps T x (waterLiquid T) ((f x).v, g1.2 / g2.2 * (f x).phi), ?_, hv, ?_⟩
      · filter_upwards [ev, lt_mem_nhds hs] with x hx hx2
        refine ⟨?_, mul_pos (div_pos q1 q2) hx.2.1, rfl⟩
        unfold fugacityH2O
        rw [if_neg (not_lt.mpr hT), psat_eq, if_neg (not_lt.mpr hx2.le), ← psat_eq, e1, e2]
        obtain ⟨g3, g31, g32⟩ := Option.map_eq_some_iff.mp hx.1
        rw [g31]
        simp only [Option.bind_eq_bind, Option.bind_some, Option.some.injEq]
        rw [← g32]
        rfl
      · have d := hd.add_const (Rgas * T * Real.log (g1.2 / g2.2))
        refine d.congr_of_eventuallyEq ?_
        filter_upwards [ev] with x hx
        change Rgas * T * Real.log (g1.2 / g2.2 * (f x).phi) = _
        rw [hx.2.2, Real.log_mul (div_pos q1 q2).ne' hx.2.1.ne']
        ring) ha h1
  refine ⟨f, e1, e2, v, v1, v2, ?_⟩
  rw [v3]
  unfold virV waterVir
  rfl

/-- **C114** (H2O at saturation): at the saturation pressure the fugacity coefficient of the liquid is that of the vapour. -/
theorem C114_saturation_partial (T : ℝ) (k : Nat → ℝ) (f : Fug) (hT : T ≤ 695) (h : fugacityPT .H2O T (1000 * pSat T) k = some f) :
    ∃ g1, volumeFugacity true T (pSat T) (aVap T) 1.465 waterVir = some g1 ∧ f.phi = g1.2 := by
  unfold fugacityPT fugacityH2O at h
  dsimp only at h
  rw [mul_div_cancel_left₀ _ (by norm_num), if_neg (not_lt.mpr hT), psat_eq, if_neg (lt_irrefl _), gas_a, liq_a] at h
  rcases e1 : volumeFugacity true T (pSat T) (aVap T) 1.465 waterVir with _ | g1
  · rw [e1] at h; simp at h
  rcases e2 : volumeFugacity false T (pSat T) (aLiq T) 1.465 waterVir with _ | g2
  · rw [e1, e2] at h; simp at h
  rw [e1, e2] at h
  simp only [Option.bind_eq_bind, Option.bind_some, Option.some.injEq] at h
  refine ⟨g1, rfl, ?_⟩
  rw [← h]
  have q2 : 0 < g2.2 := by
    unfold volumeFugacity at e2
    dsimp only at e2
    split at e2
    · simp at e2
    · split_ifs at e2 <;> first | (cases e2; exact Real.exp_pos _) | simp at e2
  change g1.2 / g2.2 * g2.2 = g1.2
  field_simp

/-! ### The region of three real roots -/

/-- The roots of the cubic of liquid H2O at 625 K and 90 kbar: two are negative; the code takes one of them. -/
lemma root_negative {cb cc cd : ℝ} (hb : cb < 0) (hb1 : -1 < cb) (hq : 1 / 4 < (cb ^ 2 - 3 * cc) / 9) (hp : (2 * cb ^ 3 - 9 * cb * cc + 27 * cd) / 54 < 0)
    (h1 : ((2 * cb ^ 3 - 9 * cb * cc + 27 * cd) / 54) ^ 2 < ((cb ^ 2 - 3 * cc) / 9) ^ 3)
    (h2 : ((cb ^ 2 - 3 * cc) / 9) ^ 3 < 2 * ((2 * cb ^ 3 - 9 * cb * cc + 27 * cd) / 54) ^ 2) (hs : -cb / 3 < 1 / 8) :
    ∃ v1 v2 v3, cardano cb cc cd = some (v1, v2, v3) ∧ liquidRoot v1 v2 v3 < 0 := by
  unfold cardano
  dsimp only
  generalize (2 * cb ^ 3 - 9 * cb * cc + 27 * cd) / 54 = cp at *
  generalize (cb ^ 2 - 3 * cc) / 9 = cq at *
  have hq0 : 0 < cq := by linarith
  have h3 : 0 < cq ^ 3 := by positivity
  have hpi := Real.pi_gt_d6
  have hpi2 := Real.pi_lt_d6
  rw [if_neg (by linarith), if_neg h3.ne', if_neg hp.ne]
  refine ⟨_, _, _, rfl, ?_⟩
  have hsq : 0 < Real.sqrt (cq ^ 3) := Real.sqrt_pos.2 h3
  have hr : cp / Real.sqrt (cq ^ 3) < 0 := div_neg_of_neg_of_pos hp hsq
  have hr2 : (cp / Real.sqrt (cq ^ 3)) ^ 2 = cp ^ 2 / cq ^ 3 := by rw [div_pow, Real.sq_sqrt h3.le]
  have hlt : cp ^ 2 / cq ^ 3 < 1 := (div_lt_one h3).2 h1
  have hgt : 1 / 2 < cp ^ 2 / cq ^ 3 := by rw [lt_div_iff₀ h3]; linarith
  have hu0 : 0 < Real.sqrt (1 - cp ^ 2 / cq ^ 3) := Real.sqrt_pos.2 (by linarith)
  have hu : Real.sqrt (1 - cp ^ 2 / cq ^ 3) ^ 2 = 1 - cp ^ 2 / cq ^ 3 := Real.sq_sqrt (by linarith)
  have harg : -1 < Real.sqrt (1 - cp ^ 2 / cq ^ 3) / (cp / Real.sqrt (cq ^ 3)) := by
    rw [lt_div_iff_of_neg hr]
    nlinarith
  have harg0 : Real.sqrt (1 - cp ^ 2 / cq ^ 3) / (cp / Real.sqrt (cq ^ 3)) < 0 := div_neg_of_pos_of_neg hu0 hr
  generalize Real.sqrt (1 - cp ^ 2 / cq ^ 3) / (cp / Real.sqrt (cq ^ 3)) = x at *
  have hx1 : -(Real.pi / 4) < Real.arctan x := by
    have := Real.arctan_strictMono harg
    rwa [Real.arctan_neg, Real.arctan_one] at this
  have hx0 : Real.arctan x < 0 := Real.arctan_lt_zero.2 harg0
  rw [if_pos hx0]
  have hco1 : 2.356 < Real.arctan x + 3.1415927 := by linarith
  have hco2 : Real.arctan x + 3.1415927 < 3.1415927 := by linarith
  generalize Real.arctan x + 3.1415927 = co at *
  have hsr : 1 / 2 < Real.sqrt cq := by
    rw [show (1 : ℝ) / 2 = Real.sqrt (1 / 4) by rw [show (1 : ℝ) / 4 = (1 / 2) ^ 2 by norm_num, Real.sqrt_sq (by norm_num)]]
    exact Real.sqrt_lt_sqrt (by norm_num) hq
  have c2 : Real.cos ((co + 2 * 3.1415927) / 3) < 0 := Real.cos_neg_of_pi_div_two_lt_of_lt (by linarith) (by linarith)
  have c3 : 1 / 8 < Real.cos ((co - 2 * 3.1415927) / 3) := by
    have h := Real.one_sub_sq_div_two_le_cos (x := (co - 2 * 3.1415927) / 3)
    have : ((co - 2 * 3.1415927) / 3) ^ 2 ≤ 1.31 ^ 2 := by
      rw [sq_le_sq]
      rw [abs_of_neg (by linarith), abs_of_pos (by norm_num)]; linarith
    nlinarith
  have v2 : 0 < (-2) * Real.sqrt cq * Real.cos ((co + 2 * 3.1415927) / 3) - cb / 3 := by nlinarith
  have v3 : (-2) * Real.sqrt cq * Real.cos ((co - 2 * 3.1415927) / 3) - cb / 3 < 0 := by nlinarith
  revert v2 v3
  generalize (-2) * Real.sqrt cq * Real.cos ((co + 2 * 3.1415927) / 3) - cb / 3 = y
  generalize (-2) * Real.sqrt cq * Real.cos ((co - 2 * 3.1415927) / 3) - cb / 3 = z
  generalize (-2) * Real.sqrt cq * Real.cos (co / 3) - cb / 3 = w
  intro v2 v3
  unfold liquidRoot
  dsimp only
  have hm : 0 < (if w > 0 then w else if y > 0 then y else z) := by
    split_ifs with h; exacts [h, v2]
  generalize (if w > 0 then w else if y > 0 then y else z) = m at *
  have hm2 : 0 < (if y < m ∧ y > 0 then y else m) := by
    split_ifs with h; exacts [h.2, hm]
  rw [if_pos ⟨v3.trans hm2, v2⟩]
  exact v3

/-- **C114** fails for liquid H2O at 625 K and 90 kbar, inside the limits of the program (1e5 bar): the equation of state has a solution larger than
the co-volume, but the result is not a number, because the condition for the third root tests the second one and a negative root is taken. -/
theorem C114_root_refuted (k : Nat → ℝ) :
    (∃ v, 1.465 < v ∧ (90 : ℝ) = mrkPressure (aLiq 625) 1.465 625 v) ∧ calcFugPure .H2O 273.15 625 90000 k = none := by
  have hs : Real.sqrt 625 = 25 := by rw [show (625 : ℝ) = 25 ^ 2 by norm_num, Real.sqrt_sq (by norm_num)]
  have ha : aLiq 625 = 1079.891025664 := by unfold aLiq; rw [if_pos (by norm_num)]; norm_num
  constructor
  · have hc : ContinuousOn (fun v : ℝ => mrkPressure (aLiq 625) 1.465 625 v) (Set.Icc 1.47 1.6) := by
      unfold mrkPressure
      refine ContinuousOn.sub (ContinuousOn.div continuousOn_const (by fun_prop) ?_) (ContinuousOn.div continuousOn_const (by fun_prop) ?_)
      · intro v hv
        have : 0 < v - 1.465 := by linarith [hv.1]
        exact this.ne'
      · intro v hv
        rw [hs]
        have h1 : 0 < v := by linarith [hv.1]
        have : 0 < 25 * v * (v + 1.465) := by positivity
        exact this.ne'
    have := intermediate_value_Icc' (by norm_num) hc
    obtain ⟨v, hv, he⟩ := this (show (90 : ℝ) ∈ _ by
      rw [Set.mem_Icc, ha]; unfold mrkPressure; rw [hs]; norm_num)
    exact ⟨v, by linarith [hv.1], he.symm⟩
  · have h3 : volumeFugacity false 625 90 (waterLiquid 625).a 1.465 waterVir = none := by
      rw [liq_a, ha]
      unfold volumeFugacity
      dsimp only
      rw [hs]
      obtain ⟨v1, v2, v3, e, hneg⟩ := root_negative (cb := (-1) * RR * 625 / 90)
        (cc := (-1) * (1.465 * RR * 625 + 1.465 ^ 2 * 90 - 1079.891025664 / 25) / 90) (cd := (-1) * 1079.891025664 * 1.465 / (25 * 90))
        (by unfold RR; norm_num) (by unfold RR; norm_num) (by unfold RR; norm_num) (by unfold RR; norm_num) (by unfold RR; norm_num)
        (by unfold RR; norm_num) (by unfold RR; norm_num)
      rw [e]
      simp only [Bool.false_eq_true, if_false]
      rw [if_pos]
      left
      refine div_nonpos_of_nonpos_of_nonneg ?_ (by unfold RR; norm_num)
      nlinarith
    unfold calcFugPure
    rw [if_pos (by norm_num)]
    unfold fugacityPT fugacityH2O
    dsimp only
    rw [show (90000 : ℝ) / 1000 = 90 by norm_num, if_neg (by norm_num), psat_eq, if_neg (by unfold pSat; norm_num), h3]
    rcases volumeFugacity true 625 (pSat 625) (waterGas 625).a 1.465 waterVir with _ | g1
    · rfl
    rcases volumeFugacity false 625 (pSat 625) (waterLiquid 625).a 1.465 waterVir with _ | g2
    · rfl
    rfl

end ThermoFun.Cork

import Verif.Lemmas.WagnerPrussIv
import Verif.Props.WagnerPruss

/-!
# Values of the Wagner-Pruss function at concrete states

The check values published with IAPWS-95 (500 K, 838.025 kg/m³), and the state of liquid water at 298.15 K and 1 bar.
-/

namespace ThermoFun

lemma Enc.of_mem {x : ℝ} (a b : ℚ) (h1 : (a : ℝ) ≤ x) (h2 : x ≤ (b : ℝ)) : Enc x ⟨(Iv.rat a).lo, (Iv.rat b).hi, true⟩ := by
  intro _
  have hs := scl_pos
  exact ⟨((Enc.rat a) rfl).1.trans (by gcongr), le_trans (by gcongr) ((Enc.rat b) rfl).2⟩

lemma Enc.between {x : ℝ} {a : Iv} (h : Enc x a) (p q : ℚ) (hp : (a.ok && decide ((Iv.rat p).hi < a.lo) && decide (a.hi < (Iv.rat q).lo)) = true) :
    (p : ℝ) < x ∧ x < (q : ℝ) := by
  simp only [Bool.and_eq_true] at hp
  exact ⟨h.rat_lt p (by rw [hp.1.1, hp.1.2]; rfl), h.lt_rat q (by rw [hp.1.1, hp.2]; rfl)⟩

namespace WP

/-- The ideal and the residual part together. -/
def phiI (tI dI : Iv) : HI :=
  let lt := Iv.log tI
  let ld := Iv.log dI
  addI (idealI coef tI dI lt ld) (partD coef tI dI (partC coef tI dI lt ld (partB coef 41 11 tI dI lt ld (partB coef 30 11 tI dI lt ld
      (partB coef 19 11 tI dI lt ld (partB coef 8 11 tI dI lt ld (partA coef tI dI lt ld zeroI)))))))

lemma coef_Bpos : 0 < el coef.B 0 ∧ 0 < el coef.B 1 := by
  constructor <;> norm_num [el, coef]

/-- The residual part alone. -/
def resI (tI dI : Iv) : HI :=
  let lt := Iv.log tI
  let ld := Iv.log dI
  partD coef tI dI (partC coef tI dI lt ld (partB coef 41 11 tI dI lt ld (partB coef 30 11 tI dI lt ld
      (partB coef 19 11 tI dI lt ld (partB coef 8 11 tI dI lt ld (partA coef tI dI lt ld zeroI))))))

lemma resI_enc {tau delta : ℝ} {tI dI : Iv} (ht : 0 < tau) (hd : 0 < delta) (h1 : delta ≠ 1) (et : Enc tau tI) (ed : Enc delta dI) :
    HI.Enc (residual coef tau delta) (resI tI dI) :=
  residual_enc coef coef_Bpos h1 ⟨ht, hd, et, ed, et.log, ed.log⟩

lemma idealI_enc {tau delta : ℝ} {tI dI : Iv} (ht : 0 < tau) (hd : 0 < delta) (et : Enc tau tI) (ed : Enc delta dI) :
    HI.Enc (ideal coef tau delta) (idealI coef tI dI (.log tI) (.log dI)) :=
  ideal_enc coef ⟨ht, hd, et, ed, et.log, ed.log⟩

lemma phiI_enc {tau delta : ℝ} {tI dI : Iv} (ht : 0 < tau) (hd : 0 < delta) (h1 : delta ≠ 1) (et : Enc tau tI) (ed : Enc delta dI) :
    HI.Enc (add (ideal coef tau delta) (residual coef tau delta)) (phiI tI dI) :=
  add_enc (idealI_enc ht hd et ed) (resI_enc ht hd h1 et ed)

/-! ### The check values of IAPWS-95 -/

def refT : Iv := .rat (647.096 / 500)
def refD : Iv := .rat (838.025 / 322)

lemma refT_enc : Enc ((647.096 : ℝ) / 500) refT := Enc.lit _ (by norm_num)
lemma refD_enc : Enc ((838.025 : ℝ) / 322) refD := Enc.lit _ (by norm_num)

/-- Agreement with nine digits printed in the release. -/
def Prints (x : ℝ) (v u : ℚ) : Prop := (v - u : ℚ) < x ∧ x < (v + u : ℚ)

/-- Does an interval lie within half a unit of a printed value? -/
def near (a : Iv) (v u : ℚ) : Bool := a.ok && decide ((Iv.rat (v - u)).hi < a.lo) && decide (a.hi < (Iv.rat (v + u)).lo)

lemma Prints.of {x : ℝ} {a : Iv} (h : Enc x a) (v u : ℚ) (hn : near a v u = true) : Prints x v u := h.between _ _ hn

lemma ref_res_ok : (near (resI refT refD).f (-3.42693206) 0.5e-8 && near (resI refT refD).fD (-0.364366650) 0.5e-9 &&
    near (resI refT refD).fDD 0.856063701 0.5e-9 && near (resI refT refD).fT (-5.81403435) 0.5e-8 &&
    near (resI refT refD).fTT (-2.23440737) 0.5e-8 && near (resI refT refD).fTD (-1.12176915) 0.5e-8) = true := by decide +kernel

lemma ref_ideal_ok : (near (idealI coef refT refD (.log refT) (.log refD)).f 2.04797733 1e-8 &&
    near (idealI coef refT refD (.log refT) (.log refD)).fD 0.384236747 0.5e-9 &&
    near (idealI coef refT refD (.log refT) (.log refD)).fDD (-0.147637878) 0.5e-9 &&
    near (idealI coef refT refD (.log refT) (.log refD)).fT 9.04611106 0.5e-8 &&
    near (idealI coef refT refD (.log refT) (.log refD)).fTT (-1.93249185) 0.5e-8) = true := by decide +kernel

/-- The values printed in the IAPWS release for the computer program check at 500 K and 838.025 kg/m³. -/
structure CheckTable (o r : Helm) : Prop where
  of : Prints o.f 2.04797733 1e-8
  oD : Prints o.fD 0.384236747 0.5e-9
  oDD : Prints o.fDD (-0.147637878) 0.5e-9
  oT : Prints o.fT 9.04611106 0.5e-8
  oTT : Prints o.fTT (-1.93249185) 0.5e-8
  rf : Prints r.f (-3.42693206) 0.5e-8
  rD : Prints r.fD (-0.364366650) 0.5e-9
  rDD : Prints r.fDD 0.856063701 0.5e-9
  rT : Prints r.fT (-5.81403435) 0.5e-8
  rTT : Prints r.fTT (-2.23440737) 0.5e-8
  rTD : Prints r.fTD (-1.12176915) 0.5e-8

/-- The program's coefficients and formulas give the printed check values, to the last printed digit (the ideal part itself to one unit of it: its first two
coefficients are those of the first edition). -/
lemma iapws_check : CheckTable (ideal coef (647.096 / 500) (838.025 / 322)) (residual coef (647.096 / 500) (838.025 / 322)) := by
  have hr := resI_enc (by norm_num) (by norm_num) (by norm_num) refT_enc refD_enc
  have hi := idealI_enc (by norm_num) (by norm_num) refT_enc refD_enc
  have h1 := ref_res_ok
  have h2 := ref_ideal_ok
  simp only [Bool.and_eq_true] at h1 h2
  obtain ⟨⟨⟨⟨⟨a1, a2⟩, a3⟩, a4⟩, a5⟩, a6⟩ := h1
  obtain ⟨⟨⟨⟨b1, b2⟩, b3⟩, b4⟩, b5⟩ := h2
  exact ⟨.of hi.f _ _ b1, .of hi.fD _ _ b2, .of hi.fDD _ _ b3, .of hi.fT _ _ b4, .of hi.fTT _ _ b5, .of hr.f _ _ a1, .of hr.fD _ _ a2, .of hr.fDD _ _ a3,
    .of hr.fT _ _ a4, .of hr.fTT _ _ a5, .of hr.fTD _ _ a6⟩

/-! ### Liquid water at 298.15 K and 1 bar -/

def liqT : Iv := .rat (647.096 / 298.15)

/-- The densities between two rational numbers. -/
def liqD (a b : ℚ) : Iv := ⟨(Iv.rat (a / 322)).lo, (Iv.rat (b / 322)).hi, true⟩

lemma liqT_enc : Enc ((647.096 : ℝ) / 298.15) liqT := Enc.lit _ (by norm_num)

lemma liqD_enc {D : ℝ} (a b : ℚ) (h1 : (a : ℝ) ≤ D) (h2 : D ≤ (b : ℝ)) : Enc (D / 322) (liqD a b) :=
  Enc.of_mem _ _ (by push_cast; gcongr) (by push_cast; gcongr)

/-- The pressure of the equation of state at 298.15 K. -/
noncomputable def pressAt (D : ℝ) : ℝ := D ^ 2 * (helmholtz 298.15 D).fD

lemma pressAt_eq (D : ℝ) : pressAt D = D ^ 2 * (461.51805 * 298.15 * ((add (ideal coef (647.096 / 298.15) (D / 322)) (residual coef (647.096 / 298.15) (D / 322))).fD * (1 / 322))) := rfl

/-- The interval of pressures for densities between two rational numbers. -/
def pressI (a b : ℚ) : Iv :=
  (⟨(Iv.rat a).lo, (Iv.rat b).hi, true⟩ : Iv) ^ 2 * (.rat 461.51805 * .rat 298.15 * ((phiI liqT (liqD a b)).fD * (.rat 1 / .rat 322)))

lemma pressI_enc {D : ℝ} (a b : ℚ) (ha : 322 < a) (h1 : (a : ℝ) ≤ D) (h2 : D ≤ (b : ℝ)) : Enc (pressAt D) (pressI a b) := by
  have ha' : (322 : ℝ) < a := by exact_mod_cast ha
  have hD : 322 < D := lt_of_lt_of_le ha' h1
  have h := (phiI_enc (by norm_num) (by positivity) (by rw [Ne, div_eq_one_iff_eq (by norm_num)]; exact hD.ne') liqT_enc (liqD_enc a b h1 h2)).fD
  have hd := Enc.of_mem a b h1 h2
  rw [pressAt_eq]
  unfold pressI
  enc

lemma press_lo : pressAt 997.047039017 < 100000 := by
  have h := pressI_enc (D := 997.047039017) 997.047039017 997.047039017 (by norm_num) (by norm_num) (by norm_num)
  have := h.lt_rat 100000 (by decide +kernel)
  push_cast at this
  exact this

lemma press_hi : 100000 < pressAt 997.047039018 := by
  have h := pressI_enc (D := 997.047039018) 997.047039018 997.047039018 (by norm_num) (by norm_num) (by norm_num)
  have := h.rat_lt 100000 (by decide +kernel)
  push_cast at this
  exact this

lemma pressAt_cont : ContinuousOn pressAt (Set.Icc 997.047039017 997.047039018) := by
  intro D hD
  have h := (C93_partial 298.15 D (by norm_num) (by linarith [hD.1]) (by rintro rfl; norm_num at hD)).1.fD.dy
  exact (((continuous_pow 2).continuousAt).mul h.continuousAt).continuousWithinAt

/-- The density of liquid water at 298.15 K and 1 bar by the Wagner-Pruss equation, to nine decimals. -/
lemma liquid_exists : ∃ D : ℝ, 997.047039017 < D ∧ D < 997.047039018 ∧ D ^ 2 * (helmholtz 298.15 D).fD = 100000 := by
  obtain ⟨D, hD, h⟩ := intermediate_value_Icc (by norm_num) pressAt_cont ⟨press_lo.le, press_hi.le⟩
  refine ⟨D, lt_of_le_of_ne hD.1 ?_, lt_of_le_of_ne hD.2 ?_, h⟩
  · intro e; rw [← e] at h; exact press_lo.ne h
  · intro e; rw [e] at h; exact press_hi.ne' h

/-- The values of the Helmholtz function for these densities. -/
def liqI : HI := phiI liqT (liqD 997.047039017 997.047039018)

/-- dP/dD and dP/dT from these. -/
def pDI (d : Iv) (h : HI) : Iv :=
  .rat 2 * d * (.rat (461.51805 * 298.15) * (h.fD * (.rat 1 / .rat 322))) + d * d * (.rat (461.51805 * 298.15) * (h.fDD * (.rat 1 / .rat 322) * (.rat 1 / .rat 322)))

def pTI (d : Iv) (h : HI) : Iv :=
  d * d * (.rat (461.51805 * 298.15) * (h.fTD * (.rat (-647.096) / (.rat 298.15 * .rat 298.15)) * (.rat 1 / .rat 322)) + .rat 461.51805 * (h.fD * (.rat 1 / .rat 322)))

/-- The densities between the bounds of `liquid_exists`. -/
def rhoI : Iv := ⟨(Iv.rat 997.047039017).lo, (Iv.rat 997.047039018).hi, true⟩

lemma rhoI_enc {D : ℝ} (h1 : 997.047039017 < D) (h2 : D < 997.047039018) : Enc D rhoI :=
  Enc.of_mem _ _ (by push_cast; linarith) (by push_cast; linarith)

lemma liqI_enc {D : ℝ} (h1 : 997.047039017 < D) (h2 : D < 997.047039018) :
    HI.Enc (add (ideal coef (647.096 / 298.15) (D / 322)) (residual coef (647.096 / 298.15) (D / 322))) liqI :=
  phiI_enc (by norm_num) (by linarith) (by rw [Ne, div_eq_one_iff_eq (by norm_num)]; linarith) liqT_enc
    (liqD_enc _ _ (by push_cast; linarith) (by push_cast; linarith))

lemma pD_enc {D : ℝ} {d : Iv} {h : HI} (P : ℝ) (hd : Enc D d) (hh : HI.Enc (add (ideal coef (647.096 / 298.15) (D / 322)) (residual coef (647.096 / 298.15) (D / 322))) h) :
    Enc (waterThermoState 298.15 P D (helmholtz 298.15 D)).pressureD (pDI d h) := by
  obtain ⟨k1, k2, k3, k4, k5, k6, k7, k8⟩ := hh
  have hR : Enc ((461.51805 : ℝ) * 298.15) (.rat (461.51805 * 298.15)) := Enc.lit _ (by norm_num)
  simp only [waterThermoState, helmholtz, helmholtzOf, dimensioned]
  unfold pDI
  enc

lemma pT_enc {D : ℝ} {d : Iv} {h : HI} (P : ℝ) (hd : Enc D d) (hh : HI.Enc (add (ideal coef (647.096 / 298.15) (D / 322)) (residual coef (647.096 / 298.15) (D / 322))) h) :
    Enc (waterThermoState 298.15 P D (helmholtz 298.15 D)).pressureT (pTI d h) := by
  obtain ⟨k1, k2, k3, k4, k5, k6, k7, k8⟩ := hh
  have hR : Enc ((461.51805 : ℝ) * 298.15) (.rat (461.51805 * 298.15)) := Enc.lit _ (by norm_num)
  have hn : Enc (-647.096 : ℝ) (.rat (-647.096)) := Enc.lit _ (by norm_num)
  simp only [waterThermoState, helmholtz, helmholtzOf, dimensioned]
  unfold pTI
  enc

lemma pD_ok : (near (pDI rhoI liqI) 2.2162e6 1e3) = true := by decide +kernel

lemma pT_ok : (near (pTI rhoI liqI) 5.7e5 1e4) = true := by decide +kernel

/-- Compressibility and expansion of liquid water: dP/dD = 2.216e6 J/kg, dP/dT = 570 kPa/K. -/
lemma liquid_slopes {D : ℝ} (h1 : 997.047039017 < D) (h2 : D < 997.047039018) (P : ℝ) :
    let s := waterThermoState 298.15 P D (helmholtz 298.15 D)
    2.2152e6 < s.pressureD ∧ s.pressureD < 2.2172e6 ∧ 5.6e5 < s.pressureT ∧ s.pressureT < 5.8e5 := by
  have b1 := Prints.of (pD_enc P (rhoI_enc h1 h2) (liqI_enc h1 h2)) _ _ pD_ok
  have b2 := Prints.of (pT_enc P (rhoI_enc h1 h2) (liqI_enc h1 h2)) _ _ pT_ok
  unfold Prints at b1 b2
  norm_num at b1 b2
  refine ⟨?_, ?_, ?_, ?_⟩ <;> norm_num <;> linarith [b1.1, b1.2, b2.1, b2.2]

end WP

end ThermoFun

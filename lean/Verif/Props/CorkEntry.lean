import Verif.Props.CorkT
import Verif.Props.GasEntry
import Verif.Model.EngineReal

/-!
The properties of gases returned by the entry point of the CORK model.
-/

namespace ThermoFun.Cork

open Topology Filter
open Gas (Fug increment increment_vals)

lemma volFug_pos {vap : Bool} {T x a b : ℝ} {w : Vir} {g : ℝ × ℝ} (hg : volumeFugacity vap T x a b w = some g) : 0 < g.2 := by
  unfold volumeFugacity at hg
  dsimp only at hg
  split at hg
  · simp at hg
  · split_ifs at hg <;> first | (cases hg; exact Real.exp_pos _) | simp at hg

/-- What every branch has in common: the enthalpy, entropy and Gibbs energy of one state belong together. -/
structure Tied (T : ℝ) (f : Fug) : Prop where
  phi : 0 < f.phi
  g : f.g = Rgas * T * Real.log f.phi
  s : ∀ h s, f.h = some h → f.s = some s → s = (h - f.g) / T

lemma tied_mrk {T P : ℝ} {p : Gas.AB} {vf : ℝ × ℝ} (h : 0 < vf.2) : Tied T (mrkProps T P p vf) := by
  refine ⟨h, rfl, ?_⟩
  unfold mrkProps
  dsimp only
  intro a b ha hb
  split_ifs at ha hb
  cases ha
  cases hb
  rfl

lemma tied {m : Kind} {lo T Pb : ℝ} {k : Nat → ℝ} {f : Fug} (hP : 0 < Pb) (h : calcFugPure m lo T Pb k = some f) : Tied T f := by
  unfold calcFugPure at h
  split_ifs at h
  · unfold fugacityPT at h
    cases m <;> dsimp only at h
    · unfold fugacityH2O at h
      split_ifs at h
      · obtain ⟨g, h1, rfl⟩ := Option.map_eq_some_iff.mp h
        exact tied_mrk (volFug_pos h1)
      · obtain ⟨g, h1, rfl⟩ := Option.map_eq_some_iff.mp h
        exact tied_mrk (volFug_pos h1)
      · simp only [Option.bind_eq_bind, Option.bind_eq_some_iff, Option.some.injEq] at h
        obtain ⟨g1, h1, g2, h2, g3, h3, rfl⟩ := h
        exact tied_mrk (mul_pos (div_pos (volFug_pos h1) (volFug_pos h2)) (volFug_pos h3))
    · unfold fugacityCO2 at h
      obtain ⟨g, h1, rfl⟩ := Option.map_eq_some_iff.mp h
      exact tied_mrk (volFug_pos h1)
    · cases h
      unfold fugacityCorresponding
      dsimp only
      refine ⟨div_pos (Real.exp_pos _) (by positivity), rfl, ?_⟩
      intro a b ha hb
      cases ha
      cases hb
      rfl
  · cases h
    refine ⟨one_pos, ?_, ?_⟩
    · change 0 = Rgas * T * Real.log 1
      rw [Real.log_one, mul_zero]
    · intro a b ha hb
      cases ha
      cases hb
      simp

/-- What `corkProps` does, with the pressure not zero. -/
lemma corkProps_eq {T P lo : ℝ} {fm : String} {rest : List ℝ} {tail : List (List ℝ)} {crit : List ℝ} {tps : TPS} (hP : P ≠ 0) :
    corkProps (TS.temperature T) (pbar P) fm ((lo :: rest) :: tail) crit tps = if crit.length < 7 then .ub else
      .ok (match calcFugPure (.of fm) lo T (P / 1e5) (fun i => crit.getD i 0) with
        | none => none
        | some f => match f.h, f.s with
          | some h, some s => some (increment (TS.temperature T) (pbar P) f h s tps)
          | _, _ => none) := by
  have e : (pbar P).val ≠ 0 := by rw [val_pbar]; exact div_ne_zero hP (by norm_num)
  unfold corkProps
  dsimp only
  simp only [if_neg e]
  simp only [val_pbar, TS.val_temperature]
  rfl

/-! ### C117 -/

/-- **C117** (values): H and S get the residual properties of the fluid chosen by the formula, V is set, G, Cp, U and A stay as they were.
Missing from C117: the result is not consistent (`C117_gibbs_refuted`). -/
theorem C117_values_partial (T P lo Pr : ℝ) (fm : String) (rest : List ℝ) (tail : List (List ℝ)) (crit : List ℝ) (tps r : TPS) (hP : 0 < P)
    (h : corkEntry T P fm ((lo :: rest) :: tail) crit Pr tps false = .ok (some r)) :
    ∃ f hR sR, calcFugPure (if fm = "H2O" then .H2O else if fm = "CO2" then .CO2 else .gas) lo T (P / 1e5) (fun i => crit.getD i 0) = some f ∧
      f.h = some hR ∧ f.s = some sR ∧ r.G.val = tps.G.val ∧ r.H.val = tps.H.val + hR ∧ r.S.val = tps.S.val + sR ∧ r.V.val = f.v ∧
      r.Cp = tps.Cp ∧ r.U = tps.U ∧ r.A = tps.A := by
  unfold corkEntry at h
  rw [corkProps_eq hP.ne'] at h
  by_cases hl : crit.length < 7
  · rw [if_pos hl] at h
    simp at h
  rw [if_neg hl] at h
  rcases hf : calcFugPure (.of fm) lo T (P / 1e5) (fun i => crit.getD i 0) with _ | f
  · rw [hf] at h
    simp at h
  rcases hh : f.h with _ | hR
  · rw [hf] at h
    simp only [hh] at h
    simp at h
  rcases hs : f.s with _ | sR
  · rw [hf] at h
    simp only [hh, hs] at h
    simp at h
  rw [hf] at h
  simp only [hh, hs] at h
  cases h
  exact ⟨f, hR, sR, hf, hh, hs, increment_vals hP.ne' (tied (by positivity) hf).phi⟩

/-- **C117** (pressure 0): without pressure correction, pressure 0 is taken for 1 Pa. -/
theorem C117_zero_partial (T Pr : ℝ) (fm : String) (intervals : List (List ℝ)) (crit : List ℝ) (tps : TPS) :
    corkEntry T 0 fm intervals crit Pr tps false = corkEntry T 1 fm intervals crit Pr tps false := by
  have e0 : (pbar 0).val = 0 := by rw [val_pbar]; norm_num
  have e1 : (pbar 1).val ≠ 0 := by rw [val_pbar]; norm_num
  have e : TS.addAssignD (pbar 0) 1e-5 = pbar 1 := by
    simp only [TS.addAssignD, pbar, TS.divAssignD, TS.pressure, TS.mulAssignD, TS.mk5]
    norm_num
  unfold corkEntry corkProps
  dsimp only
  rw [if_pos e0, if_neg e1, e]
  rfl

/-- **C117** is violated at every state where the fugacity coefficient is not 1: if consistent properties come in, those going out do not satisfy
G = H - TS, whatever the fluid. -/
theorem C117_gibbs_refuted (T P lo Pr : ℝ) (fm : String) (rest : List ℝ) (tail : List (List ℝ)) (crit : List ℝ) (tps r : TPS) (hP : 0 < P)
    (hT : 0 < T) (h : corkEntry T P fm ((lo :: rest) :: tail) crit Pr tps false = .ok (some r)) (hG : tps.G.val = tps.H.val - T * tps.S.val)
    (hne : ∀ f, calcFugPure (if fm = "H2O" then .H2O else if fm = "CO2" then .CO2 else .gas) lo T (P / 1e5) (fun i => crit.getD i 0) = some f → f.phi ≠ 1) :
    r.G.val ≠ r.H.val - T * r.S.val := by
  obtain ⟨f, hR, sR, h1, h2, h3, h4, h5, h6, -⟩ := C117_values_partial T P lo Pr fm rest tail crit tps r hP h
  have t := tied (by positivity) h1
  have hs := t.s hR sR h2 h3
  have hR0 : 0 < Rgas := by unfold Rgas; norm_num
  have hg : f.g ≠ 0 := by
    rw [t.g]
    refine mul_ne_zero (by positivity) ?_
    exact Real.log_ne_zero_of_pos_of_ne_one t.phi (hne f h1)
  rw [h4, h5, h6, hG, hs]
  intro hc
  apply hg
  have e : T * ((hR - f.g) / T) = hR - f.g := by field_simp
  have : T * (tps.S.val + (hR - f.g) / T) = T * tps.S.val + T * ((hR - f.g) / T) := by ring
  rw [this, e] at hc
  linarith

/-- CO2 at 400 K and 1 kbar. -/
lemma ex_co2_entry : ∃ r f, corkEntry 400 1e8 "CO2" [[200]] [304.2, 73.8, 0, 0, 0, 0, 0] 1e5 TPS.default false = .ok (some r) ∧
    calcFugPure .CO2 200 400 (1e8 / 1e5) (fun i => [304.2, 73.8, 0, 0, 0, 0, 0].getD i 0) = some f ∧ f.phi < 1 := by
  have hK : (1e8 / 1e5 / 1000 : ℝ) = 1 := by norm_num
  have hs : Real.sqrt 400 = 20 := sqrt_sq' 20 (by norm_num) (by norm_num)
  have h1 := ex_co2.1.one (by norm_num) (by norm_num)
  rw [show (1000 / 1000 : ℝ) = 1 by norm_num] at h1
  have h2 : One (co2AB 400).a 3.057 400 1 := by rw [co2_a]; exact h1
  have r := mrk_root (by norm_num) one_pos (by rw [co2_a]; exact ex_co2.2.le) (by norm_num) h2
  have hf : calcFugPure .CO2 200 400 (1e8 / 1e5) (fun i => [304.2, 73.8, 0, 0, 0, 0, 0].getD i 0)
      = some (mrkProps 400 1 (co2AB 400) (mrkV (co2AB 400).a 3.057 400 1, Real.exp (mrkLn 400 1 (co2AB 400).a 3.057 (mrkV (co2AB 400).a 3.057 400 1)))) := by
    unfold calcFugPure
    rw [if_pos (by norm_num)]
    unfold fugacityPT fugacityCO2
    dsimp only
    rw [hK, volFug_one (by norm_num) one_pos (by rw [co2_a]; exact ex_co2.2.le) (by norm_num) h2,
      (novir (w := co2Vir 400) (P := 1) (by unfold co2Vir; norm_num) 400).1, (novir (w := co2Vir 400) (P := 1) (by unfold co2Vir; norm_num) 400).2,
      add_zero, add_zero]
    rfl
  have hh := props_h (P := 1) (p := co2AB 400) (f := Real.exp (mrkLn 400 1 (co2AB 400).a 3.057 (mrkV (co2AB 400).a 3.057 400 1)))
    (T := 400) (by norm_num) (show (0 : ℝ) < 3.057 by norm_num) r.vb
  have he : ∃ r, corkEntry 400 1e8 "CO2" [[200]] [304.2, 73.8, 0, 0, 0, 0, 0] 1e5 TPS.default false = .ok (some r) := by
    unfold corkEntry
    rw [corkProps_eq (by norm_num), if_neg (by simp), show Kind.of "CO2" = .CO2 by decide, hf]
    dsimp only
    rw [hh.1, hh.2]
    exact ⟨_, rfl⟩
  obtain ⟨q, hq⟩ := he
  refine ⟨q, _, hq, hf, ?_⟩
  change Real.exp _ < 1
  rw [Real.exp_lt_one_iff]
  have hv : 4.87 ≤ mrkV (co2AB 400).a 3.057 400 1 ∧ mrkV (co2AB 400).a 3.057 400 1 ≤ 4.88 := by
    have hz := Gas.oneRoot_root h2.1.le h2.2
    have hc : ContinuousOn (fun x : ℝ => x ^ 3 + cbM 400 1 * x ^ 2 + ccM (co2AB 400).a 3.057 400 1 * x + cdM (co2AB 400).a 3.057 400 1)
      (Set.Icc 4.87 4.88) := by fun_prop
    have hmem : (0 : ℝ) ∈ Set.Icc ((4.87 : ℝ) ^ 3 + cbM 400 1 * 4.87 ^ 2 + ccM (co2AB 400).a 3.057 400 1 * 4.87 + cdM (co2AB 400).a 3.057 400 1)
        ((4.88 : ℝ) ^ 3 + cbM 400 1 * 4.88 ^ 2 + ccM (co2AB 400).a 3.057 400 1 * 4.88 + cdM (co2AB 400).a 3.057 400 1) := by
      unfold cbM ccM cdM RR co2AB
      rw [hs]
      constructor <;> norm_num
    obtain ⟨y, hy, hy0⟩ := intermediate_value_Icc (by norm_num) hc hmem
    have : mrkV (co2AB 400).a 3.057 400 1 = y := Gas.root_unique h2.1 hz hy0
    rw [this]
    exact hy
  generalize mrkV (co2AB 400).a 3.057 400 1 = v at hv
  obtain ⟨hv1, hv2⟩ := hv
  unfold mrkLn
  rw [hs, show (co2AB 400).a = 641.7504 by unfold co2AB; norm_num]
  have hRT : RR * 400 = 3.325804 := by unfold RR; norm_num
  have l1 : -0.6932 ≤ Real.log ((v - 3.057) * 1 / (RR * 400)) := by
    have h1 : Real.log (1 / 2) ≤ Real.log ((v - 3.057) * 1 / (RR * 400)) := by
      apply Real.log_le_log (by norm_num)
      rw [hRT, le_div_iff₀ (by norm_num)]
      linarith
    rw [one_div, Real.log_inv] at h1
    have := Real.log_two_lt_d9
    have : (0.6931471808 : ℝ) < 0.6932 := by norm_num
    linarith
  have hv0 : 0 < v := by linarith
  have l2 : 0.385 ≤ Real.log (1 + 3.057 / v) := by
    have h1 : 1.6262 ≤ 1 + 3.057 / v := by
      have : 0.6262 ≤ 3.057 / v := by rw [le_div_iff₀ hv0]; linarith
      linarith
    have h2 := Real.one_sub_inv_le_log_of_pos (x := 1 + 3.057 / v) (by linarith)
    have h3 : (1 + 3.057 / v)⁻¹ ≤ 1.6262⁻¹ := inv_anti₀ (by norm_num) h1
    have : (1.6262 : ℝ)⁻¹ ≤ 0.615 := by norm_num
    linarith
  have l3 : 1 * v / (RR * 400) ≤ 1.4674 := by rw [hRT, div_le_iff₀ (by norm_num)]; linarith
  have l4 : 3.15 ≤ 641.7504 / (3.057 * RR * 400 * 20) := by unfold RR; norm_num
  nlinarith

example : ∃ r, corkEntry 400 1e8 "CO2" [[200]] [304.2, 73.8, 0, 0, 0, 0, 0] 1e5 TPS.default false = .ok (some r) ∧
    r.G.val ≠ r.H.val - 400 * r.S.val := by
  obtain ⟨r, f, h1, h2, h3⟩ := ex_co2_entry
  refine ⟨r, h1, C117_gibbs_refuted 400 1e8 200 1e5 "CO2" [] [] _ TPS.default r (by norm_num) (by norm_num) h1
    (by simp [TPS.default, TS.default]) ?_⟩
  intro g hg
  rw [if_neg (by decide), if_pos rfl, h2] at hg
  cases hg
  exact h3.ne

end ThermoFun.Cork

import Verif.Props.Stp
import Verif.Props.GasEntry

/-!
# The entry points of the models of Sterner and Pitzer (C121) and of Churakov and Gottschalk (C122)
-/

namespace ThermoFun.Stp

open Gas (Fug increment increment_vals)

/-- What every result has in common. -/
structure Tied (T : ℝ) (f : Fug) : Prop where
  phi : 0 < f.phi
  g : f.g = Rgas * T * Real.log f.phi
  s : ∃ h s, f.h = some h ∧ f.s = some s ∧ h = f.g + T * s

lemma tied {m : Fluid} {lo T Pb : ℝ} {k : Nat → ℝ} {f : Fug} (h : calcFugPure m lo T Pb k = .ok (some f)) : Tied T f := by
  unfold calcFugPure at h
  split_ifs at h with hc
  · obtain ⟨h1, h2, h3, -⟩ := C120_result_partial m T Pb k _ h
    obtain ⟨x, y, rfl, -⟩ := h3 f rfl
    refine ⟨div_pos (Real.exp_pos _) (by linarith [hc.2.2.1, show (0 : ℝ) < 1e-5 by norm_num]), ?_, _, _, rfl, rfl, rfl⟩
    show Real.log (props m.cf T (Pb / 10) y).phi * Rgas * T = _
    ring
  · cases h
    refine ⟨one_pos, ?_, 0, 0, rfl, rfl, ?_⟩
    · show 0 = Rgas * T * Real.log 1
      rw [Real.log_one, mul_zero]
    · show (0 : ℝ) = 0 + T * 0
      ring

/-- What `stpProps` does, with the pressure not zero. -/
lemma stpProps_eq {T P lo : ℝ} {fm : String} {m : Fluid} {rest : List ℝ} {tail : List (List ℝ)} {crit : List ℝ} {tps : TPS} (hP : P ≠ 0)
    (hm : Fluid.of fm = some m) (hl : ¬ crit.length < 7) :
    stpProps (TS.temperature T) (pbar P) fm ((lo :: rest) :: tail) crit tps =
      (calcFugPure m lo T (P / 1e5) (fun i => crit.getD i 0)).bind fun o => match o with
        | none => .ok none
        | some f => match f.h, f.s with
          | some h, some s => .ok (some (increment (TS.temperature T) (pbar P) f h s tps))
          | _, _ => .ok none := by
  have e : (pbar P).val ≠ 0 := by rw [val_pbar]; exact div_ne_zero hP (by norm_num)
  unfold stpProps
  rw [hm]
  dsimp only
  simp only [if_neg e, if_neg hl]
  simp only [val_pbar, TS.val_temperature]
  rfl

/-! ### C121 -/

/-- **C121** (values): H and S get the residual properties of the fluid of the formula, V is set, G, Cp, U and A stay as they were.
Missing from C121: the result is not consistent (`C121_gibbs_refuted`), and there is undefined behaviour for other formulas
(`C121_formula_refuted`) and temperatures (`C121_range_refuted`). -/
theorem C121_values_partial (T P lo Pr : ℝ) (fm : String) (rest : List ℝ) (tail : List (List ℝ)) (crit : List ℝ) (tps r : TPS) (hP : 0 < P)
    (h : stpEntry T P fm ((lo :: rest) :: tail) crit Pr tps false = .ok (some r)) :
    ∃ m f hR sR, (fm = "H2O" ∧ m = .H2O ∨ fm = "CO2" ∧ m = .CO2) ∧ calcFugPure m lo T (P / 1e5) (fun i => crit.getD i 0) = .ok (some f) ∧
      f.h = some hR ∧ f.s = some sR ∧ hR = f.g + T * sR ∧ f.g = 8.31451 * T * Real.log f.phi ∧
      r.G.val = tps.G.val ∧ r.H.val = tps.H.val + hR ∧ r.S.val = tps.S.val + sR ∧ r.V.val = f.v ∧ r.Cp = tps.Cp ∧ r.U = tps.U ∧ r.A = tps.A := by
  unfold stpEntry at h
  have hf : ∃ m, Fluid.of fm = some m ∧ (fm = "H2O" ∧ m = .H2O ∨ fm = "CO2" ∧ m = .CO2) := by
    by_cases a : fm = "H2O"
    · exact ⟨.H2O, by simp [Fluid.of, a], .inl ⟨a, rfl⟩⟩
    · by_cases b : fm = "CO2"
      · exact ⟨.CO2, by simp [Fluid.of, b], .inr ⟨b, rfl⟩⟩
      · exfalso
        have : Fluid.of fm = none := by simp [Fluid.of, a, b]
        unfold stpProps at h
        rw [this] at h
        cases h
  obtain ⟨m, hm, hm'⟩ := hf
  by_cases hl : crit.length < 7
  · exfalso
    unfold stpProps at h
    rw [hm] at h
    dsimp only at h
    rw [if_pos hl] at h
    cases h
  rw [stpProps_eq hP.ne' hm hl] at h
  rcases hc : calcFugPure m lo T (P / 1e5) (fun i => crit.getD i 0) with o | _ | _
  · rw [hc] at h
    rcases o with _ | f
    · cases h
    · have t := tied hc
      obtain ⟨a, b, ha, hb, hab⟩ := t.s
      have : stpEntry T P fm ((lo :: rest) :: tail) crit Pr tps false = .ok (some (increment (TS.temperature T) (pbar P) f a b tps)) := by
        unfold stpEntry
        rw [stpProps_eq hP.ne' hm hl, hc]
        simp only [Res.bind, ha, hb]
        rfl
      unfold stpEntry at this
      rw [stpProps_eq hP.ne' hm hl, hc] at this
      rw [this] at h
      cases h
      exact ⟨m, f, a, b, hm', hc, ha, hb, hab, t.g, increment_vals hP.ne' t.phi⟩
  · rw [hc] at h
    cases h
  · rw [hc] at h
    cases h

/-- **C121** (pressure 0): without pressure correction, pressure 0 is taken for 1 Pa. -/
theorem C121_zero_partial (T Pr : ℝ) (fm : String) (intervals : List (List ℝ)) (crit : List ℝ) (tps : TPS) :
    stpEntry T 0 fm intervals crit Pr tps false = stpEntry T 1 fm intervals crit Pr tps false := by
  have e0 : (pbar 0).val = 0 := by rw [val_pbar]; norm_num
  have e1 : (pbar 1).val ≠ 0 := by rw [val_pbar]; norm_num
  have e : TS.addAssignD (pbar 0) 1e-5 = pbar 1 := by
    simp only [TS.addAssignD, pbar, TS.divAssignD, TS.pressure, TS.mulAssignD, TS.mk5]
    norm_num
  unfold stpEntry stpProps
  dsimp only
  rw [if_pos e0, if_neg e1, e]
  rfl

/-- **C121** is violated at every state where the fugacity coefficient is not 1: if consistent properties come in, those going out do not satisfy
G = H - TS. -/
theorem C121_gibbs_refuted (T P lo Pr : ℝ) (fm : String) (rest : List ℝ) (tail : List (List ℝ)) (crit : List ℝ) (tps r : TPS) (hP : 0 < P)
    (hT : 0 < T) (h : stpEntry T P fm ((lo :: rest) :: tail) crit Pr tps false = .ok (some r)) (hG : tps.G.val = tps.H.val - T * tps.S.val)
    (hne : ∀ f m, (fm = "H2O" ∧ m = .H2O ∨ fm = "CO2" ∧ m = .CO2) → calcFugPure m lo T (P / 1e5) (fun i => crit.getD i 0) = .ok (some f) → f.phi ≠ 1) :
    r.G.val ≠ r.H.val - T * r.S.val := by
  obtain ⟨m, f, hR, sR, hm, hf, hh, hs, e, eg, v1, v2, v3, -⟩ := C121_values_partial T P lo Pr fm rest tail crit tps r hP h
  have t := tied hf
  rw [v1, v2, v3, hG, e]
  have : f.g ≠ 0 := by
    rw [eg]
    exact mul_ne_zero (by positivity) (Real.log_ne_zero_of_pos_of_ne_one t.phi (hne f m hm hf))
  intro hc
  apply this
  linarith

/-- **C121** is violated for every formula but `H2O` and `CO2`: the code of the fluid is not initialised. -/
theorem C121_formula_refuted (T P Pr : ℝ) (fm : String) (intervals : List (List ℝ)) (crit : List ℝ) (tps : TPS) (fl : Bool)
    (h1 : fm ≠ "H2O") (h2 : fm ≠ "CO2") : stpEntry T P fm intervals crit Pr tps fl = .ub := by
  have : Fluid.of fm = none := by simp [Fluid.of, h1, h2]
  unfold stpEntry stpProps
  rw [this]
  rfl

example : stpEntry 500 1e7 "H2O@" [[273]] [647, 221, 0, 0, 0, 0, 0] 1e5 TPS.default false = .ub :=
  C121_formula_refuted 500 1e7 1e5 "H2O@" _ _ _ _ (by decide) (by decide)

/-- **C121** is violated above 2000 K and below 200 K, if the temperature is not below that of the record: the error code of the fluid class is dropped,
and results are read that have not been set. -/
theorem C121_range_refuted (T P lo Pr : ℝ) (fm : String) (rest : List ℝ) (tail : List (List ℝ)) (crit : List ℝ) (tps : TPS) (fl : Bool)
    (hT : T < 200 ∨ 2000 < T) (h1 : lo ≤ T) (h2 : T < 1e4) (hP : 1 ≤ P) (hP' : P < 1e10) :
    stpEntry T P fm ((lo :: rest) :: tail) crit Pr tps fl = .ub := by
  by_cases hl : crit.length < 7
  · unfold stpEntry stpProps
    cases hf : Fluid.of fm
    · rfl
    · dsimp only
      rw [if_pos hl]
      rfl
  cases hm : Fluid.of fm with
  | none =>
    unfold stpEntry stpProps
    rw [hm]
    rfl
  | some m =>
    have hc : calcFugPure m lo T (P / 1e5) (fun i => crit.getD i 0) = .ub := by
      unfold calcFugPure
      rw [if_pos ⟨h1, h2, by rw [ge_iff_le, le_div_iff₀ (by norm_num)]; norm_num; linarith, by rw [div_lt_iff₀ (by norm_num)]; norm_num; linarith⟩]
      unfold fugacityPT
      rw [if_pos (by rcases hT with h | h; exacts [.inl h, .inr (.inl h)])]
    unfold stpEntry
    rw [stpProps_eq (by linarith) hm hl, hc]
    rfl

example : stpEntry 2300 1e9 "H2O" [[273]] [647, 221, 0, 0, 0, 0, 0] 1e5 TPS.default false = .ub :=
  C121_range_refuted 2300 1e9 273 1e5 "H2O" [] [] _ _ _ (.inr (by norm_num)) (by norm_num) (by norm_num) (by norm_num) (by norm_num)

/-- CO2 at 1600 K and 1 bar. -/
lemma ex_entry : ∃ r, stpEntry 1600 1e5 "CO2" [[273]] [304.2, 73.8, 0, 0, 0, 0, 0] 1e5 TPS.default false = .ok (some r) ∧
    ∀ f m, ("CO2" = "H2O" ∧ m = Fluid.H2O ∨ "CO2" = "CO2" ∧ m = Fluid.CO2) →
      calcFugPure m 273 1600 (1e5 / 1e5) (fun i => [304.2, 73.8, 0, 0, 0, 0, 0].getD i 0) = .ok (some f) → f.phi ≠ 1 := by
  obtain ⟨w, hw, w1, w2⟩ := ex_result (k := fun i => [304.2, 73.8, 0, 0, 0, 0, 0].getD i 0) (by norm_num) (by norm_num) (by norm_num)
  have hc : calcFugPure .CO2 273 1600 (1e5 / 1e5) (fun i => [304.2, 73.8, 0, 0, 0, 0, 0].getD i 0)
      = .ok (some (props (Fluid.cf .CO2) 1600 (1 / 10) w)) := by
    unfold calcFugPure
    rw [if_pos (by norm_num), show (1e5 / 1e5 : ℝ) = 1 by norm_num]
    exact hw
  have he : ∃ r, stpEntry 1600 1e5 "CO2" [[273]] [304.2, 73.8, 0, 0, 0, 0, 0] 1e5 TPS.default false = .ok (some r) := by
    obtain ⟨a, b, ha, hb, -⟩ := (tied hc).s
    unfold stpEntry
    rw [stpProps_eq (m := .CO2) (by norm_num) (by decide) (by simp), hc]
    simp only [Res.bind, ha, hb]
    exact ⟨_, rfl⟩
  obtain ⟨r, hr⟩ := he
  refine ⟨r, hr, ?_⟩
  · rintro f m (⟨h, -⟩ | ⟨-, rfl⟩) hf
    · exact absurd h (by decide)
    rw [hc] at hf
    cases hf
    intro h1
    have w0 : 0 < w := by linarith
    have t := (tied hc).g
    rw [h1, Real.log_one, mul_zero, props_g _ _ _ (by norm_num)] at t
    have hp := ex_phi w0 w2
    have hR := Gas.Rpos
    generalize (helmholtz (Fluid.cf .CO2) 1600 w).f = f at *
    have l := Real.log_le_sub_one_of_pos (x := (1 / 10) / (w * Rgas * 1600)) (by positivity)
    have e : Real.log ((1 / 10) / (w * Rgas * 1600)) = Real.log (1 / 10) - Real.log w - Real.log (Rgas * 1600) := by
      rw [mul_assoc, Real.log_div (by norm_num) (by positivity), Real.log_mul w0.ne' (by positivity)]
      ring
    rw [e, show w * Rgas * 1600 = w * Rgas * 1600 from rfl] at l
    have t' : Real.log w + f + Real.log (Rgas * 1600) - 1 - Real.log (1 / 10) + (1 / 10) / (w * Rgas * 1600) = 0 := by
      have hk : Rgas * 1600 ≠ 0 := by positivity
      rw [← mul_add] at t
      exact (mul_eq_zero.mp t).resolve_left hk
    linarith

example : ∃ r, stpEntry 1600 1e5 "CO2" [[273]] [304.2, 73.8, 0, 0, 0, 0, 0] 1e5 TPS.default false = .ok (some r) ∧
    r.G.val ≠ r.H.val - 1600 * r.S.val := by
  obtain ⟨r, h1, h2⟩ := ex_entry
  exact ⟨r, h1, C121_gibbs_refuted 1600 1e5 273 1e5 "CO2" [] [] _ TPS.default r (by norm_num) (by norm_num) h1
    (by simp [TPS.default, TS.default]) h2⟩

/-! ### C122 -/

/-- **C122** is violated by every record of a fluid with the model of Churakov and Gottschalk, at every temperature and pressure and whatever the rest of
the model does: it reads twelve elements of an array that has seven. -/
theorem C122_array_refuted (rest : List ℝ → Res (Option TPS)) (intervals : List (List ℝ)) (crit : List ℝ) : cgfProps rest intervals crit = .ub := by
  unfold cgfProps
  split
  · unfold readFirst
    split_ifs with h
    · rfl
    · have : (crit.take 7).length < 12 := by rw [List.length_take]; omega
      show (if (crit.take 7).length < 12 then Res.ub else _ : Res (List ℝ)) >>= rest = _
      rw [if_pos this]
      rfl
  · rfl

example : cgfProps (fun _ => .ok (some TPS.default)) [[273, 1000]] [647, 221, 0, 0, 0, 0, 0, 1, 1, 1, 1, 1] = .ub := C122_array_refuted _ _ _

end ThermoFun.Stp

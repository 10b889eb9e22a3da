import Verif.Props.GasCritical
import Verif.Props.Reference

/-!
# Real gases at their reference state

Theorems about the engine (Model/Engine.lean) with the gas equations of state (Model/Gas.lean) plugged in: what a real gas is reported with at
the reference temperature and pressure of its record (C155).
-/

namespace ThermoFun.Gas

/-- Where attraction outweighs the volume of the molecules, the fugacity coefficient is below 1. -/
lemma lnf_neg {u w A B z : ℝ} (hB : 0 < B) (hB1 : B ≤ 0.01) (hA : 1.2 * B + 2 * B ^ 2 ≤ A) (hz : |z - 1| ≤ 0.02) (hw : -1 ≤ w) (hu : w < u)
    (hs : u + w ≤ 2) (hp : u * w ≤ 0) (hW : 0 < z + w * B) (he : A * (z - B) = (z + u * B) * (z + w * B) * (1 - (z - B))) :
    z - 1 - Real.log (z - B) - A / (B * (u - w)) * Real.log ((z + u * B) / (z + w * B)) < 0 := by
  obtain ⟨h1, h2⟩ := abs_le.1 hz
  have hU : 0 < z + u * B := by nlinarith
  have hy : 0 < z - B := by linarith
  have hA0 : 0 < A := by nlinarith
  have l1 : -Real.log (z - B) ≤ 1 / (z - B) - 1 := by
    have := Real.one_sub_inv_le_log_of_pos hy
    rw [one_div]; linarith
  have l2 : B * (u - w) / (z + u * B) ≤ Real.log ((z + u * B) / (z + w * B)) := by
    have := Real.one_sub_inv_le_log_of_pos (div_pos hU hW)
    rw [inv_div] at this
    have e : 1 - (z + w * B) / (z + u * B) = B * (u - w) / (z + u * B) := by
      rw [one_sub_div hU.ne']
      congr 1
      ring
    linarith
  have hBu : 0 < B * (u - w) := mul_pos hB (by linarith)
  have l3 : A / (z + u * B) ≤ A / (B * (u - w)) * Real.log ((z + u * B) / (z + w * B)) := by
    have := mul_le_mul_of_nonneg_left l2 (div_pos hA0 hBu).le
    have e : A / (B * (u - w)) * (B * (u - w) / (z + u * B)) = A / (z + u * B) := by
      rw [div_mul_div_comm, mul_comm A, mul_div_mul_left _ _ hBu.ne']
    linarith
  have e3 : A / (z + u * B) = (z + w * B) * (1 - (z - B)) / (z - B) := by
    rw [div_eq_div_iff hU.ne' hy.ne']
    linear_combination he
  have hD : (z + u * B) * (z + w * B) ≤ 1.0404 + 2.04 * B := by
    have : (z + u * B) * (z + w * B) = z ^ 2 + (u + w) * (B * z) + u * w * B ^ 2 := by ring
    have h3 : (u + w) * (B * z) ≤ 2 * (B * z) := mul_le_mul_of_nonneg_right hs (by nlinarith)
    have h4 : u * w * B ^ 2 ≤ 0 := mul_nonpos_of_nonpos_of_nonneg hp (sq_nonneg _)
    nlinarith
  have hD0 : 0 < (z + u * B) * (z + w * B) := mul_pos hU hW
  -- 1 - (z - B) is A (z - B) / D
  have hq : 0 < 1 - (z - B) := by
    by_contra hn
    have : A * (z - B) ≤ 0 := by rw [he]; exact mul_nonpos_of_nonneg_of_nonpos hD0.le (not_lt.1 hn)
    nlinarith [mul_pos hA0 hy]
  have key : z - 1 + (1 / (z - B) - 1) - (z + w * B) * (1 - (z - B)) / (z - B)
      = (B * (z - B) - (1 - (z - B)) * (2 * (z - B) - 1 + (1 + w) * B)) / (z - B) := by
    field_simp
    ring
  have hfin : B * (z - B) < (1 - (z - B)) * (2 * (z - B) - 1 + (1 + w) * B) := by
    have g1 : 0.94 ≤ 2 * (z - B) - 1 + (1 + w) * B := by
      have : 0 ≤ (1 + w) * B := mul_nonneg (by linarith) hB.le
      linarith
    have g2 : (1 - (z - B)) * 0.94 ≤ (1 - (z - B)) * (2 * (z - B) - 1 + (1 + w) * B) := mul_le_mul_of_nonneg_left g1 hq.le
    have g3 : B * (1.0404 + 2.04 * B) < 0.94 * A := by nlinarith
    have g4 : B * (z - B) * ((z + u * B) * (z + w * B)) < 0.94 * A * (z - B) := by
      have := mul_le_mul_of_nonneg_left hD hB.le
      have := mul_lt_mul_of_pos_right (lt_of_le_of_lt this g3) hy
      linarith
    have g5 : 0.94 * A * (z - B) = (1 - (z - B)) * 0.94 * ((z + u * B) * (z + w * B)) := by linear_combination 0.94 * he
    rw [g5] at g4
    exact (lt_of_mul_lt_mul_right g4 hD0.le).trans_le g2
  have : (B * (z - B) - (1 - (z - B)) * (2 * (z - B) - 1 + (1 + w) * B)) / (z - B) < 0 := div_neg_of_neg_of_pos (by linarith) hy
  rw [← e3] at key
  linarith

/-- At low pressure the inflexion point is not a solution. -/
lemma not_inflexion {m : Eos} {T P : ℝ} {k : Nat → ℝ} (hTc : 0 < k 0) (hPc : 0 < k 1) (hT : 0 < T) (hP : 0 < P)
    (hs : (parsOf m T k).a * P / (Rgas * T) ^ 2 + (parsOf m T k).b * P / (Rgas * T) ≤ 1 / 100) : P ≠ eosOf m T k (inflexionOf m T P k) := by
  have hR := Rpos
  obtain ⟨ha0, hb⟩ := parsOf_pos (m := m) (T := T) hTc hPc
  have key : ∀ (mm n e s a b : ℝ), 0 < s → 0 ≤ a → 0 < b → (mm = 2 ∧ n = -1 ∧ e = 1) ∨ (mm = 1 ∧ n = 0 ∧ e = 0) → a * P / s ^ 2 + b * P / s ≤ 1 / 100 →
      P ≠ pres mm n s a b ((s / P - e * b) / 3) := by
    intro mm n e s a b hs0 ha0 hb hmn hs he
    obtain ⟨B, hB⟩ : ∃ B, B = b * P / s := ⟨_, rfl⟩
    obtain ⟨A, hA⟩ : ∃ A, A = a * P / s ^ 2 := ⟨_, rfl⟩
    have hB0 : 0 < B := by rw [hB]; positivity
    have hA0 : 0 ≤ A := by rw [hA]; positivity
    have eb : b = B * s / P := by rw [hB]; field_simp
    have ea : a = A * s ^ 2 / P := by rw [hA]; field_simp
    rw [← hA, ← hB] at hs
    have e1 : s / ((s / P - e * b) / 3 - b) = P / ((1 - e * B) / 3 - B) := by
      rw [eb, show (s / P - e * (B * s / P)) / 3 - B * s / P = ((1 - e * B) / 3 - B) * (s / P) by field_simp]
      rw [mul_comm, ← div_div, div_div_cancel₀ hs0.ne']
    have e2 : a / (((s / P - e * b) / 3) ^ 2 + mm * b * ((s / P - e * b) / 3) + n * b ^ 2)
        = P * (A / (((1 - e * B) / 3) ^ 2 + mm * B * ((1 - e * B) / 3) + n * B ^ 2)) := by
      rw [ea, eb, show ((s / P - e * (B * s / P)) / 3) ^ 2 + mm * (B * s / P) * ((s / P - e * (B * s / P)) / 3) + n * (B * s / P) ^ 2
        = (((1 - e * B) / 3) ^ 2 + mm * B * ((1 - e * B) / 3) + n * B ^ 2) * (s / P) ^ 2 by field_simp]
      rw [mul_comm _ ((s / P) ^ 2), ← div_div, show A * s ^ 2 / P / (s / P) ^ 2 = P * A by field_simp, mul_div_assoc]
    unfold pres at he
    rw [e1, e2] at he
    have he' : 1 = 1 / ((1 - e * B) / 3 - B) - A / (((1 - e * B) / 3) ^ 2 + mm * B * ((1 - e * B) / 3) + n * B ^ 2) := by
      refine mul_left_cancel₀ hP.ne' ?_
      rw [mul_one, mul_sub, ← mul_div_assoc, mul_one]
      exact he
    have hy : 0 < (1 - e * B) / 3 - B ∧ (1 - e * B) / 3 - B ≤ 1 / 3 := by
      rcases hmn with ⟨-, -, rfl⟩ | ⟨-, -, rfl⟩ <;> constructor <;> linarith
    have hD : 0.1 ≤ ((1 - e * B) / 3) ^ 2 + mm * B * ((1 - e * B) / 3) + n * B ^ 2 := by
      rcases hmn with ⟨rfl, rfl, rfl⟩ | ⟨rfl, rfl, rfl⟩ <;> nlinarith
    have h3 : 3 ≤ 1 / ((1 - e * B) / 3 - B) := by rw [le_div_iff₀ hy.1]; linarith [hy.2]
    have h4 : A / (((1 - e * B) / 3) ^ 2 + mm * B * ((1 - e * B) / 3) + n * B ^ 2) ≤ 1 := by rw [div_le_one (by linarith)]; linarith
    linarith
  have hs0 : 0 < Rgas * T := by positivity
  rw [eosOf_pres]
  cases m
  · have := key 2 (-1) 1 _ _ _ hs0 ha0 hb (.inl ⟨rfl, rfl, rfl⟩) hs
    unfold inflexionOf
    rw [one_mul] at this
    exact this
  · have := key 1 0 0 _ _ _ hs0 ha0 hb (.inr ⟨rfl, rfl, rfl⟩) hs
    unfold inflexionOf
    rw [zero_mul, sub_zero] at this
    exact this
  · have := key 2 (-1) 1 _ _ _ hs0 ha0 hb (.inl ⟨rfl, rfl, rfl⟩) hs
    unfold inflexionOf
    rw [one_mul] at this
    exact this

/-- A gas above its critical temperature at low pressure: its residual properties. -/
lemma real_low {m : Eos} {T P : ℝ} {k : Nat → ℝ} (h : GasRec k) (hT : 1.0001 * k 0 ≤ T) (hP : 0 < P)
    (hα : alphaOf m (k 2) * (Real.sqrt (T / k 0) - 1) < 1)
    (ha : 1.2 * ((parsOf m T k).b * (Rgas * T)) + 2 * (parsOf m T k).b ^ 2 * P ≤ (parsOf m T k).a)
    (hs : (parsOf m T k).a * P / (Rgas * T) ^ 2 + (parsOf m T k).b * P / (Rgas * T) ≤ 1 / 100) :
    ∃ f hR sR, fugacityPT m T P k = some f ∧ f.h = some hR ∧ f.s = some sR ∧ hR - T * sR = Rgas * T * Real.log f.phi ∧ Real.log f.phi < 0 ∧
      NearIdeal T P (2 * ((parsOf m T k).a * P / (Rgas * T) ^ 2 + (parsOf m T k).b * P / (Rgas * T)))
        (6 * ((parsOf m T k).a * P / (Rgas * T) ^ 2 + (parsOf m T k).b * P / (Rgas * T))) f := by
  have hR := Rpos
  have hTc := h.Tc
  have hT0 : 0 < T := by linarith
  obtain ⟨ha0, hb⟩ := parsOf_pos (m := m) (T := T) h.Tc h.Pc
  have hi := not_inflexion (m := m) h.Tc h.Pc hT0 hP hs
  obtain ⟨⟨f1, ev1, ev2, -⟩, ⟨f2, hr, sr, ev3, hh, hss, -, he⟩, -⟩ := C171_consistent_partial m T P k h hT hP hα ha hi
  have e1 := ev1.self_of_nhds
  have e2 := ev2.self_of_nhds
  have e3 : fugacityPT m T P k = some (f2 T) := ev3.self_of_nhds
  have e12 : f1 P = f2 T := Option.some.inj (e1.symm.trans e3)
  rw [e12] at e2
  have hB : 0 < (parsOf m T k).b * P / (Rgas * T) := by positivity
  have hA : 0 ≤ (parsOf m T k).a * P / (Rgas * T) ^ 2 := by positivity
  have hAB : 1.2 * ((parsOf m T k).b * P / (Rgas * T)) + 2 * ((parsOf m T k).b * P / (Rgas * T)) ^ 2 ≤ (parsOf m T k).a * P / (Rgas * T) ^ 2 := by
    have : 1.2 * ((parsOf m T k).b * P / (Rgas * T)) + 2 * ((parsOf m T k).b * P / (Rgas * T)) ^ 2
        = (1.2 * ((parsOf m T k).b * (Rgas * T)) + 2 * (parsOf m T k).b ^ 2 * P) * (P / (Rgas * T) ^ 2) := by field_simp
    rw [this, mul_div_assoc]
    exact mul_le_mul_of_nonneg_right ha (by positivity)
  have eA : Ax (parsOf m T k).a T P = (parsOf m T k).a * P / (Rgas * T) ^ 2 := by unfold Ax; rw [mul_pow]
  have eB : Bx (parsOf m T k).b T P = (parsOf m T k).b * P / (Rgas * T) := rfl
  have hsg := single_of_rec h hT hP ha hi
  have hz : ∀ z f, f.v = z * Rgas * T / P → NearIdeal T P (2 * ((parsOf m T k).a * P / (Rgas * T) ^ 2 + (parsOf m T k).b * P / (Rgas * T)))
        (6 * ((parsOf m T k).a * P / (Rgas * T) ^ 2 + (parsOf m T k).b * P / (Rgas * T))) f → |z - 1| ≤ 0.02 := by
    intro z f hv hn
    have := hn.1
    rw [hv, show P * (z * Rgas * T / P) / (Rgas * T) = z by field_simp] at this
    refine this.trans ?_
    linarith
  refine ⟨f2 T, hr, sr, e3, hh, hss, by rw [← e2, he]; ring, ?_⟩
  have pr : ∀ (c Tc Pc : ℝ) (p : AB) (f : Fug), p = parsOf m T k → PrSingle p.a p.b T P → prPure c T P Tc Pc p = some f → Real.log f.phi < 0 ∧
      NearIdeal T P (2 * (p.a * P / (Rgas * T) ^ 2 + p.b * P / (Rgas * T))) (6 * (p.a * P / (Rgas * T) ^ 2 + p.b * P / (Rgas * T))) f := by
    rintro c Tc Pc p f rfl hsg hf
    obtain ⟨f', h1, h2⟩ := C165_pr_partial c T P Tc Pc (parsOf m T k) hT0 hP ha0 hb hsg (by linarith)
    obtain rfl : f' = f := Option.some.inj (h1.symm.trans hf)
    refine ⟨?_, h2⟩
    rw [prPure_one hT0 hP ha0 hb hsg.one] at h1
    have h1 := Option.some.inj h1
    have hr := pr_rootOf hT0 hP ha0 hb hsg.one
    have hc := oneRoot_root hsg.one.1.le hsg.one.2
    rw [pr_cubic] at hc
    have hz := hz (prZ (parsOf m T k).a (parsOf m T k).b T P) f' (by rw [← h1]; rfl) h2
    have hphi : Real.log f'.phi = prLnf (Ax (parsOf m T k).a T P) (Bx (parsOf m T k).b T P) (prZ (parsOf m T k).a (parsOf m T k).b T P) := by
      rw [← h1]
      exact Real.log_exp _
    have hW := hr.W
    change (prZ (parsOf m T k).a (parsOf m T k).b T P + _) * (prZ (parsOf m T k).a (parsOf m T k).b T P + _) * (prZ (parsOf m T k).a (parsOf m T k).b T P - _ - 1) + _ * (prZ (parsOf m T k).a (parsOf m T k).b T P - _) = 0 at hc
    rw [hphi]
    generalize prZ (parsOf m T k).a (parsOf m T k).b T P = z at *
    rw [eA, eB] at *
    have := lnf_neg (u := 1 + Real.sqrt 2) (w := 1 - Real.sqrt 2) hB (by linarith) hAB hz (by linarith [sqrt2_lt]) (by linarith [sqrt2_pos]) (by linarith)
      (by nlinarith [sqrt2]) hW (by linear_combination hc)
    unfold prLnf
    rw [sqrt8]
    have e : (1 + Real.sqrt 2) - (1 - Real.sqrt 2) = 2 * Real.sqrt 2 := by ring
    rw [e] at this
    linarith
  cases m
  · exact pr _ _ _ _ _ rfl hsg e3
  · obtain ⟨f', h1, h2⟩ := C165_srk_partial T P (parsOf .SRK T k) hT0 hP ha0 hb hsg (by linarith)
    have e4 : f' = f2 T := Option.some.inj (h1.symm.trans e3)
    rw [← e4]
    refine ⟨?_, h2⟩
    rw [srkPure_one hT0 hP ha0 hb hsg.one] at h1
    have h1 := Option.some.inj h1
    have hr := srk_rootOf hT0 hP ha0 hb hsg.one
    have hc := oneRoot_root hsg.one.1.le hsg.one.2
    rw [srk_cubic] at hc
    have hz := hz (srkZ (parsOf .SRK T k).a (parsOf .SRK T k).b T P) f' (by rw [← h1]; rfl) h2
    have hphi : Real.log f'.phi = srkLnf (Ax (parsOf .SRK T k).a T P) (Bx (parsOf .SRK T k).b T P) (srkZ (parsOf .SRK T k).a (parsOf .SRK T k).b T P) := by
      rw [← h1]
      exact Real.log_exp _
    have hW := hr.W
    change (srkZ (parsOf .SRK T k).a (parsOf .SRK T k).b T P + _) * (srkZ (parsOf .SRK T k).a (parsOf .SRK T k).b T P + _) * (srkZ (parsOf .SRK T k).a (parsOf .SRK T k).b T P - _ - 1) + _ * (srkZ (parsOf .SRK T k).a (parsOf .SRK T k).b T P - _) = 0 at hc
    rw [hphi]
    generalize srkZ (parsOf .SRK T k).a (parsOf .SRK T k).b T P = z at *
    rw [eA, eB] at *
    have := lnf_neg (u := 1) (w := 0) hB (by linarith) hAB hz (by norm_num) (by norm_num) (by norm_num) (by norm_num) hW (by linear_combination hc)
    unfold srkLnf
    rw [sub_zero, mul_one, zero_mul, add_zero, one_mul, add_div, div_self (by rintro rfl; norm_num at hz)] at this
    exact this
  · exact pr _ _ _ _ _ rfl hsg e3

end ThermoFun.Gas

namespace ThermoFun.Engine

open ThermoFun.Gas

variable {base : Models PSolv ESolv} {env : Env PSolv ESolv}

/-- The correction for pressure that stands for an equation of state. -/
def corrOf : Eos → CorrP
  | .PRSV => .PRSV
  | .SRK => .SRK
  | .PR78 => .PR78

/-- A record of a gas with a table of heat capacities and an equation of state. -/
structure RealGas (x : Subst) (m : Eos) : Prop where
  notH : x.symbol ≠ "H+"
  own : x.reacdc = false
  cls : x.cls = .GASFLUID
  gen : x.gen = .CPT
  noLandau : x.mT ≠ .CHP
  real : x.mP = corrOf m
  crit : 7 ≤ x.params.critical.length

/-- What the engine answers for a real gas at its reference state, in terms of the residual properties. -/
lemma real_answer (hm : env.mods = real base) (hfb : env.fallback = false) (hbb : bermanBrown env = false) {x : Subst} {m : Eos} (hx : RealGas x m)
    {t : CpTable} (ht : t.Ok) (htab : HasTable x t) (hT : 0 < x.refT) (hP : 0 < x.refP) (h0 : t.At x.refT 0) {f : Fug} {hR sR : ℝ}
    (hf : calcFugPure m (t.b 0) x.refT (x.refP / 1e5) (fun i => x.params.critical.getD i 0) = some f) (hh : f.h = some hR) (hs : f.s = some sR)
    (n : Nat) (s : ESt PSolv ESolv) :
    ∃ r s', ask env (n + 1) (.subRec x.refT x.refP x) s = (.ok (.sub r), s') ∧ r.G.val = x.ref.G.val ∧ r.H.val = x.ref.H.val + hR ∧
      r.S.val = x.ref.S.val + sR ∧ r.V.val = f.v := by
  obtain ⟨r, hr, g1, g2, g3, -⟩ := emp_recorded ht htab hT h0
  have e2 : tStep env x.refT x.refP x r (setPrefs env x s).2 = (.ok r, (setPrefs env x s).2) := by
    have := hx.noLandau
    have hg := hx.gen
    unfold tStep
    cases hT : x.mT <;> first | exact absurd hT this | simp only [hg, ne_eq, not_true_eq_false, if_false] <;> rfl
  obtain ⟨rest, hint⟩ : ∃ rest, x.params.intervals = [t.b 0, t.b 1] :: rest := by
    obtain ⟨j, hj⟩ := Nat.exists_eq_succ_of_ne_zero (show t.n ≠ 0 by have := h0.1; omega)
    rw [htab.2.1, hj, List.range_succ_eq_map]
    exact ⟨_, rfl⟩
  obtain ⟨v1, v2, v3, v4, -⟩ := increment_vals (T := x.refT) (h := hR) (s := sR) (tps := r) hP.ne' (calcPhi_pos hf)
  obtain ⟨k1, k2⟩ := entry_of (Pr := x.refP) (rest := [t.b 1]) (tail := rest) (tps := r) hx.crit hP.ne' hf hh hs
  rw [← hint] at k1 k2
  have hent : ∃ r', gasEntry m x.refT x.refP x.params.intervals x.params.critical x.refP r (setPrefs env x s).2.pcorr = .ok (some r') ∧
      r'.G.val = r.G.val ∧ r'.H.val = r.H.val + hR ∧ r'.S.val = r.S.val + sR ∧ r'.V.val = f.v := by
    cases (setPrefs env x s).2.pcorr
    · exact ⟨_, k1, v1, v2, v3, v4⟩
    · refine ⟨_, k2, ?_, ?_, ?_, ?_⟩
      · rw [← v1]; simp [applyPressure, val_pbar, hP.ne']
      · rw [← v2]; simp [applyPressure, val_pbar]
      · rw [← v3]; simp [applyPressure, val_pbar, hP.ne']
      · rw [← v4]; simp [applyPressure, val_pbar]
  obtain ⟨r', hr', w1, w2, w3, w4⟩ := hent
  have hp : pStep env (run env n) x.refT x.refP x r (setPrefs env x s).2 = (.ok r', (setPrefs env x s).2) := by
    have e0 : EM.read (·.pcorr) (setPrefs env x s).2 = (.ok (setPrefs env x s).2.pcorr, (setPrefs env x s).2) := rfl
    unfold pStep
    rw [bind_run e0, if_neg (by simp [hx.gen]), hx.real]
    cases m <;> simp only [corrOf, hm, Engine.real, EM.lift, hr', orNaN] <;> rfl
  have hans := substRec_steps hm hfb hbb hx.notH hx.own (by rw [hx.cls]; simp) hx.gen hr s e2 hp
  refine ⟨r', (setPrefs env x s).2, ?_, by rw [w1, g1], by rw [w2, g2], by rw [w3, g3], w4⟩
  show (do return Answer.sub (← (run env (n + 1)).direct x.refT x.refP x) : EM PSolv ESolv (Answer PSolv ESolv)) s = _
  rw [bind_run (show (run env (n + 1)).direct x.refT x.refP x s = _ from hans)]
  rfl

/-- The critical parameters of a record. -/
noncomputable def critOf (x : Subst) : Nat → ℝ := fun i => x.params.critical.getD i 0

/-- A gas above its critical temperature at its reference state, whose reference pressure is low (A + B ≤ 1/100; for most gases at 1 bar this is met),
and for which attraction outweighs the volume of the molecules (so not hydrogen and helium at room temperature). -/
structure LowPressureGas (x : Subst) (m : Eos) (t : CpTable) : Prop where
  crit : GasRec (critOf x)
  above : 1.0001 * critOf x 0 ≤ x.refT
  lo : t.b 0 ≤ x.refT
  hi : x.refT < 1e4
  p : 1e-5 ≤ x.refP / 1e5 ∧ x.refP / 1e5 < 1e5
  alpha : alphaOf m (critOf x 2) * (Real.sqrt (x.refT / critOf x 0) - 1) < 1
  attr : 1.2 * ((parsOf m x.refT (critOf x)).b * (Rgas * x.refT)) + 2 * (parsOf m x.refT (critOf x)).b ^ 2 * (x.refP / 1e5) ≤ (parsOf m x.refT (critOf x)).a
  low : (parsOf m x.refT (critOf x)).a * (x.refP / 1e5) / (Rgas * x.refT) ^ 2 + (parsOf m x.refT (critOf x)).b * (x.refP / 1e5) / (Rgas * x.refT) ≤ 1 / 100

/-- **C155, real gases, the part that holds.**  A gas with one of the equations of state, asked for at the reference temperature and pressure of its
record, after any requests, has the recorded G.  H − T S is below the recorded value by 6 R T (A + B) at most, and the volume is R T / P up to the
fraction 2 (A + B).  Missing: that H, S and V are the recorded ones (below). -/
theorem C155_real_gas_partial (hm : env.mods = real base) (hfb : env.fallback = false) (hbb : bermanBrown env = false) {x : Subst} {m : Eos} (hx : RealGas x m)
    {t : CpTable} (ht : t.Ok) (htab : HasTable x t) (h0 : t.At x.refT 0) (hl : LowPressureGas x m t) (n : Nat) (s : ESt PSolv ESolv) :
    ∃ r s', ask env (n + 1) (.subRec x.refT x.refP x) s = (.ok (.sub r), s') ∧ r.G.val = x.ref.G.val ∧
      r.H.val - x.refT * r.S.val < x.ref.H.val - x.refT * x.ref.S.val ∧
      x.ref.H.val - x.refT * x.ref.S.val - 6 * Rgas * x.refT * ((parsOf m x.refT (critOf x)).a * (x.refP / 1e5) / (Rgas * x.refT) ^ 2
        + (parsOf m x.refT (critOf x)).b * (x.refP / 1e5) / (Rgas * x.refT)) ≤ r.H.val - x.refT * r.S.val ∧
      |x.refP / 1e5 * r.V.val / (Rgas * x.refT) - 1| ≤ 2 * ((parsOf m x.refT (critOf x)).a * (x.refP / 1e5) / (Rgas * x.refT) ^ 2
        + (parsOf m x.refT (critOf x)).b * (x.refP / 1e5) / (Rgas * x.refT)) := by
  have hR := Rpos
  have hTc := hl.crit.Tc
  have hT : 0 < x.refT := by linarith [hl.above]
  have hp : 0 < x.refP / 1e5 := by linarith [hl.p.1]
  have hP : 0 < x.refP := by
    have := mul_pos hp (show (0 : ℝ) < 1e5 by norm_num)
    rwa [div_mul_cancel₀ _ (by norm_num)] at this
  obtain ⟨f, hr, sr, e1, e2, e3, e4, e5, e6⟩ := real_low hl.crit hl.above hp hl.alpha hl.attr hl.low
  have hf : calcFugPure m (t.b 0) x.refT (x.refP / 1e5) (critOf x) = some f := by
    unfold calcFugPure
    rw [if_pos ⟨hl.lo, hl.hi, hl.p.1, hl.p.2⟩]
    exact e1
  obtain ⟨r, s', a1, a2, a3, a4, a5⟩ := real_answer hm hfb hbb hx ht htab hT hP h0 hf e2 e3 n s
  have hRT : 0 < Rgas * x.refT := mul_pos hR hT
  refine ⟨r, s', a1, a2, ?_, ?_, ?_⟩
  · rw [a3, a4]
    have := mul_neg_of_pos_of_neg hRT e5
    linarith
  · rw [a3, a4]
    have := mul_le_mul_of_nonneg_left (neg_le_of_abs_le e6.2) hRT.le
    linarith
  · rw [a5]
    exact e6.1

/-- **C155 refuted, real gases.**  The equations of state add their residual enthalpy and entropy to the recorded values but leave G as it is.  For every
gas above its critical temperature whose attraction outweighs the volume of the molecules, H and S at the reference state are not both the recorded
ones, and if the recorded values satisfied G = H − T S (with the same reference for all three), the reported ones do not. -/
theorem C155_real_gas_refuted (hm : env.mods = real base) (hfb : env.fallback = false) (hbb : bermanBrown env = false) {x : Subst} {m : Eos} (hx : RealGas x m)
    {t : CpTable} (ht : t.Ok) (htab : HasTable x t) (h0 : t.At x.refT 0) (hl : LowPressureGas x m t) (n : Nat) (s : ESt PSolv ESolv) :
    ∃ r s', ask env (n + 1) (.subRec x.refT x.refP x) s = (.ok (.sub r), s') ∧ ¬ AsRecorded x.ref r ∧
      (x.ref.G.val = x.ref.H.val - x.refT * x.ref.S.val → r.G.val ≠ r.H.val - x.refT * r.S.val) := by
  obtain ⟨r, s', h1, h2, h3, -⟩ := C155_real_gas_partial hm hfb hbb hx ht htab h0 hl n s
  refine ⟨r, s', h1, fun h => ?_, fun h4 h5 => ?_⟩
  · rw [h.2.1, h.2.2.1] at h3
    exact lt_irrefl _ h3
  · rw [← h5, h2, ← h4] at h3
    exact lt_irrefl _ h3

/-- Intervals from 200 to 600 and to 1000 K. -/
noncomputable def wide : CpTable :=
  ⟨2, fun j => 200 + 400 * j, fun j => if j = 0 then [40] else [60], fun _ => 0, fun _ => 0, fun _ => 0⟩

lemma wide_ok : wide.Ok := by
  refine ⟨by decide, by norm_num [wide], ?_, 1, ?_⟩
  · refine strictMono_nat_of_lt_succ fun j => ?_
    simp only [wide]
    push_cast
    linarith
  · intro j hj
    simp only [wide]
    split <;> rfl

/-- Carbon dioxide with a reference state of 432 K and 1 bar, and the equation of Peng and Robinson. -/
noncomputable def exReal : Subst :=
  { exIdeal with
    mP := .PR78
    refT := 432
    params :=
      { exIdeal.params with
        cpCoeffs := (List.range wide.n).map wide.c
        intervals := (List.range wide.n).map (fun j => [wide.b j, wide.b (j + 1)])
        transitions := (List.range (wide.n - 1)).map (fun j => [wide.b (j + 1), wide.dS j, wide.dH j, wide.dV j])
        critical := [300, 74, 0.225, 0, 0, 0, 0] } }

lemma exReal_crit : critOf exReal 0 = 300 ∧ critOf exReal 1 = 74 ∧ critOf exReal 2 = 0.225 := by
  refine ⟨?_, ?_, ?_⟩ <;> simp [critOf, exReal]

lemma exReal_low : LowPressureGas exReal .PR78 wide := by
  have hs : Real.sqrt (432 / 300) = 1.2 := sqrt_ex 1.2 (by norm_num) (by norm_num)
  obtain ⟨k0, k1, k2⟩ := exReal_crit
  have hrec : GasRec (critOf exReal) := by
    constructor
    · rw [k0]; norm_num
    · rw [k1]; norm_num
    · rw [k2]; norm_num
    · rw [k2]; norm_num
  have hT : exReal.refT = 432 := rfl
  have hP : exReal.refP / 1e5 = 1 := by show (1e5 : ℝ) / 1e5 = 1; norm_num
  obtain ⟨e1, e2⟩ := parsOf_form (m := .PR78) (T := 432) hrec (.inl (by rw [k0]; norm_num))
  rw [k0, k1, k2, hs] at e1
  rw [k0, k1] at e2
  constructor
  · exact hrec
  · rw [k0, hT]; norm_num
  · rw [hT]; norm_num [wide]
  · rw [hT]; norm_num
  · rw [hP]; norm_num
  · rw [k0, k2, hT, hs]; norm_num [alphaOf]
  · rw [hP, hT, e1, e2]; norm_num [alphaOf, cA, cB, Rgas]
  · rw [hP, hT, e1, e2]; norm_num [alphaOf, cA, cB, Rgas]

example (s : ESt PSolv ESolv) : ∃ r s', ask (exSolidEnv exReal) 1 (.subRec 432 1e5 exReal) s = (.ok (.sub r), s') ∧ ¬ AsRecorded exReal.ref r := by
  have hx : RealGas exReal .PR78 := ⟨by simp [exReal, exIdeal, exSolid, exMineral], rfl, rfl, rfl, by simp [exReal, exIdeal, exSolid, exMineral], rfl, by simp [exReal]⟩
  have htab : HasTable exReal wide := ⟨rfl, rfl, rfl⟩
  have h0 : wide.At exReal.refT 0 := ⟨by decide, Or.inl (by norm_num [wide, exReal])⟩
  obtain ⟨r, s', h1, h2, -⟩ := C155_real_gas_refuted (base := noWater) (env := exSolidEnv exReal) rfl rfl (exSolid_bb _) hx wide_ok htab h0 exReal_low 0 s
  exact ⟨r, s', h1, h2⟩

end ThermoFun.Engine

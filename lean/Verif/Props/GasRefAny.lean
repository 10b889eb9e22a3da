import Verif.Props.GasReference

/-!
# Real gases at any reference state

Theorems about the engine (Model/Engine.lean) with the gas equations of state (Model/Gas.lean) plugged in: what a real gas, also one below its critical
temperature or one that is a liquid, is reported with at the reference state of its record (C155).
-/

namespace ThermoFun.Gas

lemma pr_residual {c T P Tc Pc : ℝ} {p : AB} {f : Fug} {hR sR : ℝ} (hT : 0 < T) (hf : prPure c T P Tc Pc p = some f) (hh : f.h = some hR) (hs : f.s = some sR)
    (hphi : f.phi ≠ Real.exp 1000) : hR - T * sR = Rgas * T * Real.log f.phi := by
  unfold prPure at hf
  rw [Option.map_eq_some_iff] at hf
  obtain ⟨r, -, rfl⟩ := hf
  obtain ⟨-, hm, -⟩ := pick_mem (prLnf (p.a * P / (Rgas ^ 2 * T ^ 2)) (p.b * P / (Rgas * T))) (p.b * P / (Rgas * T)) r.1 r.2.1 r.2.2
  generalize pick (prLnf (p.a * P / (Rgas ^ 2 * T ^ 2)) (p.b * P / (Rgas * T))) (p.b * P / (Rgas * T)) r.1 r.2.1 r.2.2 = zl at *
  obtain ⟨z, l⟩ := zl
  dsimp only [prProps] at hm hh hs hphi ⊢
  rw [Real.log_exp]
  unfold lnfOr at hm
  split_ifs at hm
  · split_ifs at hh hs
    rw [← Option.some.inj hh, ← Option.some.inj hs, hm, prLnf]
    rw [mul_div_cancel₀ _ hT.ne']
    ring
  · exact absurd (by rw [hm]) hphi

lemma srk_residual {T P : ℝ} {p : AB} {f : Fug} {hR sR : ℝ} (hT : 0 < T) (hP : 0 < P) (hb : 0 < p.b) (hf : srkPure T P p = some f) (hh : f.h = some hR)
    (hs : f.s = some sR) (hphi : f.phi ≠ Real.exp 1000) : hR - T * sR = Rgas * T * Real.log f.phi := by
  have hR0 := Rpos
  unfold srkPure at hf
  rw [Option.map_eq_some_iff] at hf
  obtain ⟨r, -, rfl⟩ := hf
  obtain ⟨-, hm, -⟩ := pick_mem (srkLnf (p.a * P / (Rgas ^ 2 * T ^ 2)) (p.b * P / (Rgas * T))) (p.b * P / (Rgas * T)) r.1 r.2.1 r.2.2
  generalize pick (srkLnf (p.a * P / (Rgas ^ 2 * T ^ 2)) (p.b * P / (Rgas * T))) (p.b * P / (Rgas * T)) r.1 r.2.1 r.2.2 = zl at *
  obtain ⟨z, l⟩ := zl
  dsimp only [srkProps] at hm hh hs hphi ⊢
  rw [Real.log_exp]
  unfold lnfOr at hm
  split_ifs at hm with hz
  · have hB : 0 < p.b * P / (Rgas * T) := by positivity
    have hz0 : 0 < z := hB.trans hz
    have e1 : p.b / (z * Rgas * T / P) = p.b * P / (Rgas * T) / z := by field_simp
    have e2 : z * (1 - p.b * P / (Rgas * T) / z) = z - p.b * P / (Rgas * T) := by field_simp
    have e3 : p.a * P / (Rgas ^ 2 * T ^ 2) / (p.b * P / (Rgas * T)) = p.a / (p.b * Rgas * T) := by field_simp
    rw [← Option.some.inj hh, ← Option.some.inj hs, hm, srkLnf, e1, e2, e3]
    generalize Real.log (1 + p.b * P / (Rgas * T) / z) = L
    generalize Real.log (z - p.b * P / (Rgas * T)) = M
    field_simp
    ring
  · exact absurd (by rw [hm]) hphi

/-- Whichever root is taken, the residual H and S belong to the fugacity coefficient. -/
lemma residual_tied {m : Eos} {T P : ℝ} {k : Nat → ℝ} {f : Fug} {hR sR : ℝ} (hT : 0 < T) (hP : 0 < P) (h0 : 0 < k 0) (h1 : 0 < k 1)
    (hf : fugacityPT m T P k = some f) (hh : f.h = some hR) (hs : f.s = some sR) (hphi : f.phi ≠ Real.exp 1000) :
    hR - T * sR = Rgas * T * Real.log f.phi := by
  cases m
  · exact pr_residual hT hf hh hs hphi
  · exact srk_residual hT hP (parsOf_pos (m := .SRK) h0 h1).2 hf hh hs hphi
  · exact pr_residual hT hf hh hs hphi

end ThermoFun.Gas

namespace ThermoFun.Engine

open ThermoFun.Gas

variable {base : Models PSolv ESolv} {env : Env PSolv ESolv}

/-- **C155 refuted, real gases in any state.**  For every record of a gas with one of the three equations of state, above or below the critical temperature
and whichever root is taken, and after any requests: at the reference state G is the recorded one, H − T S differs from the recorded value by R T ln φ, and so
wherever the fugacity coefficient φ is not 1, H and S are not both the recorded ones, and G = H − T S is lost if the record has it.  (Outside are states
where no root exceeds the volume of the molecules, which get φ = e¹⁰⁰⁰.) -/
theorem C155_real_gas_any_refuted (hm : env.mods = real base) (hfb : env.fallback = false) (hbb : bermanBrown env = false) {x : Subst} {m : Eos} (hx : RealGas x m)
    {t : CpTable} (ht : t.Ok) (htab : HasTable x t) (hT : 0 < x.refT) (hP : 0 < x.refP) (h0 : t.At x.refT 0)
    (hTc : 0 < x.params.critical.getD 0 0) (hPc : 0 < x.params.critical.getD 1 0) {f : Fug} {hR sR : ℝ}
    (hf : calcFugPure m (t.b 0) x.refT (x.refP / 1e5) (fun i => x.params.critical.getD i 0) = some f) (hh : f.h = some hR) (hs : f.s = some sR)
    (hphi : f.phi ≠ 1) (hphi' : f.phi ≠ Real.exp 1000) (n : Nat) (s : ESt PSolv ESolv) :
    ∃ r s', ask env (n + 1) (.subRec x.refT x.refP x) s = (.ok (.sub r), s') ∧ r.G.val = x.ref.G.val ∧
      r.H.val - x.refT * r.S.val = x.ref.H.val - x.refT * x.ref.S.val + Rgas * x.refT * Real.log f.phi ∧ ¬ AsRecorded x.ref r ∧
      (x.ref.G.val = x.ref.H.val - x.refT * x.ref.S.val → r.G.val ≠ r.H.val - x.refT * r.S.val) := by
  obtain ⟨r, s', a1, a2, a3, a4, -⟩ := real_answer hm hfb hbb hx ht htab hT hP h0 hf hh hs n s
  have hl : Rgas * x.refT * Real.log f.phi ≠ 0 :=
    mul_ne_zero (mul_pos Rpos hT).ne' (Real.log_ne_zero_of_pos_of_ne_one (calcPhi_pos hf) hphi)
  have e : hR - x.refT * sR = Rgas * x.refT * Real.log f.phi := by
    have hf' := hf
    unfold calcFugPure at hf'
    split_ifs at hf'
    · exact residual_tied hT (by positivity) hTc hPc hf' hh hs hphi'
    · exact absurd (by rw [← Option.some.inj hf']) hphi
  have e' : r.H.val - x.refT * r.S.val = x.ref.H.val - x.refT * x.ref.S.val + Rgas * x.refT * Real.log f.phi := by
    rw [a3, a4, ← e]; ring
  refine ⟨r, s', a1, a2, e', fun h => ?_, fun h4 h5 => ?_⟩
  · have := h.2.1
    have := h.2.2.1
    rw [h.2.1, h.2.2.1] at e'
    exact hl (by linarith)
  · rw [a2, h4, e'] at h5
    exact hl (by linarith)

/-- A liquid: 324 K, with the critical temperature 400 K, and 140 bar; the equation of Soave, Redlich and Kwong. -/
noncomputable def exLiquid : Subst :=
  { exIdeal with
    mP := .SRK
    refT := 324
    refP := 1.4e7
    params :=
      { exIdeal.params with
        cpCoeffs := (List.range wide.n).map wide.c
        intervals := (List.range wide.n).map (fun j => [wide.b j, wide.b (j + 1)])
        transitions := (List.range (wide.n - 1)).map (fun j => [wide.b (j + 1), wide.dS j, wide.dH j, wide.dV j])
        critical := [400, 50, 0.2, 0, 0, 0, 0] } }

lemma exLiquid_phi : ∃ f hR sR, calcFugPure .SRK 200 324 140 (critOf exLiquid) = some f ∧ f.h = some hR ∧ f.s = some sR ∧ f.phi < 1 := by
  have hR := Rpos
  have k0 : critOf exLiquid 0 = 400 := by simp [critOf, exLiquid]
  have k1 : critOf exLiquid 1 = 50 := by simp [critOf, exLiquid]
  have k2 : critOf exLiquid 2 = 0.2 := by simp [critOf, exLiquid]
  have hrec : GasRec (critOf exLiquid) := by
    constructor
    · rw [k0]; norm_num
    · rw [k1]; norm_num
    · rw [k2]; norm_num
    · rw [k2]; norm_num
  have hs : Real.sqrt (324 / 400) = 0.9 := sqrt_ex 0.9 (by norm_num) (by norm_num)
  obtain ⟨e1, e2⟩ := parsOf_form (m := .SRK) (T := 324) hrec (.inr (by simp))
  rw [k0, k1, k2, hs] at e1
  rw [k0, k1] at e2
  obtain ⟨p, hp⟩ : ∃ p, p = parsOf .SRK 324 (critOf exLiquid) := ⟨_, rfl⟩
  rw [← hp] at e1 e2
  have hA : Ax p.a 324 140 = (1 + alphaOf .SRK 0.2 * (1 - 0.9)) ^ 2 * 0.42747 * (400 / 324) ^ 2 * 2.8 := by
    unfold Ax
    rw [e1]
    simp only [cA]
    field_simp
    ring
  have hB : Bx p.b 324 140 = 0.08664 * (400 / 324) * 2.8 := by
    unfold Bx
    rw [e2]
    simp only [cB]
    field_simp
    ring
  have hone : SrkOne p.a p.b 324 140 := by
    unfold SrkOne
    rw [hA, hB]
    constructor <;> norm_num [cq, cr, alphaOf]
  obtain ⟨ha0, hb0⟩ := parsOf_pos (m := .SRK) (T := 324) hrec.Tc hrec.Pc
  rw [← hp] at ha0 hb0
  have hpure := srkPure_one (T := 324) (P := 140) (by norm_num) (by norm_num) ha0 hb0 hone
  have hroot := oneRoot_root hone.1.le hone.2
  change srkZ p.a p.b 324 140 ^ 3 + _ * srkZ p.a p.b 324 140 ^ 2 + _ * srkZ p.a p.b 324 140 + _ = 0 at hroot
  have hcalc : calcFugPure .SRK 200 324 140 (critOf exLiquid) = srkPure 324 140 p := by
    unfold calcFugPure
    rw [if_pos (by norm_num), hp]
    rfl
  refine ⟨_, _, _, hcalc.trans hpure, rfl, rfl, ?_⟩
  · change Real.exp _ < 1
    rw [Real.exp_lt_one_iff]
    dsimp only
    generalize srkZ p.a p.b 324 140 = z at *
    obtain ⟨A, hA'⟩ : ∃ A, A = Ax p.a 324 140 := ⟨_, rfl⟩
    obtain ⟨B, hB'⟩ : ∃ B, B = Bx p.b 324 140 := ⟨_, rfl⟩
    rw [← hA', ← hB'] at hroot ⊢
    have a1 : 2.12 < A ∧ A < 2.125 := by rw [hA', hA]; constructor <;> norm_num [alphaOf]
    have b1 : 0.2994 < B ∧ B < 0.2996 := by rw [hB', hB]; constructor <;> norm_num
    have hk : 7.07 < A / B := by rw [lt_div_iff₀ (by linarith)]; linarith
    have hB2 : 0.0896 < B ^ 2 ∧ B ^ 2 < 0.0898 := by constructor <;> nlinarith [b1.1, b1.2]
    have hAB : 0.6347 < A * B ∧ A * B < 0.6367 := by constructor <;> nlinarith [b1.1, b1.2, a1.1, a1.2]
    have hz : 0.41 < z ∧ z < 0.45 := by
      obtain ⟨c1, hc1⟩ : ∃ c1, c1 = A - B - B ^ 2 := ⟨_, rfl⟩
      rw [← hc1] at hroot
      have l1 : 1.7306 < c1 ∧ c1 < 1.736 := by constructor <;> linarith [hB2.1, hB2.2, a1.1, a1.2, b1.1, b1.2]
      constructor
      · by_contra hn
        have q : 0 ≤ (0.41 - z) * (z ^ 2 - 0.59 * z - 0.2419 + c1) :=
          mul_nonneg (by linarith) (by nlinarith [sq_nonneg (z - 0.295)])
        linarith [hAB.1, hAB.2, l1.1, l1.2]
      · by_contra hn
        have q : 0 ≤ (z - 0.45) * (z ^ 2 - 0.55 * z - 0.2475 + c1) :=
          mul_nonneg (by linarith) (by nlinarith [sq_nonneg (z - 0.275)])
        linarith [hAB.1, hAB.2, l1.1, l1.2]
    have hl : -Real.log (z - B) < 2.7727 := by
      have h16 : Real.log (1 / 16) ≤ Real.log (z - B) := Real.log_le_log (by norm_num) (by linarith [hz.1])
      have e : Real.log (1 / 16) = -(4 * Real.log 2) := by
        rw [one_div, Real.log_inv, show (16 : ℝ) = 2 ^ 4 by norm_num, Real.log_pow]; norm_num
      have := Real.log_two_lt_d9
      linarith
    have hz0 : 0 < z := by linarith [hz.1]
    have hB0 : 0 < B := by linarith [b1.1]
    have hL : 0.3994 < Real.log (1 + B / z) := by
      have h1 : 0 < 1 + B / z := by positivity
      have h2 := Real.one_sub_inv_le_log_of_pos h1
      have e : 1 - (1 + B / z)⁻¹ = B / (z + B) := by field_simp; ring
      rw [e] at h2
      refine lt_of_lt_of_le ?_ h2
      rw [lt_div_iff₀ (by linarith)]
      linarith [hz.2]
    have hM : 7.07 * 0.3994 < A / B * Real.log (1 + B / z) := mul_lt_mul'' hk hL (by norm_num) (by norm_num)
    unfold srkLnf
    linarith [hz.2]

example (s : ESt PSolv ESolv) : ∃ r s', ask (exSolidEnv exLiquid) 1 (.subRec 324 1.4e7 exLiquid) s = (.ok (.sub r), s') ∧ ¬ AsRecorded exLiquid.ref r := by
  have hx : RealGas exLiquid .SRK :=
    ⟨by simp [exLiquid, exIdeal, exSolid, exMineral], rfl, rfl, rfl, by simp [exLiquid, exIdeal, exSolid, exMineral], rfl, by simp [exLiquid]⟩
  have htab : HasTable exLiquid wide := ⟨rfl, rfl, rfl⟩
  have h0 : wide.At exLiquid.refT 0 := ⟨by decide, Or.inl (by norm_num [wide, exLiquid])⟩
  obtain ⟨f, hR, sR, h1, h2, h3, h4⟩ := exLiquid_phi
  have hf : calcFugPure .SRK (wide.b 0) exLiquid.refT (exLiquid.refP / 1e5) (fun i => exLiquid.params.critical.getD i 0) = some f := by
    rw [← h1]
    have e1 : wide.b 0 = 200 := by norm_num [wide]
    have e2 : exLiquid.refP / 1e5 = 140 := by show (1.4e7 : ℝ) / 1e5 = 140; norm_num
    rw [e1, e2]
    rfl
  have h5 : f.phi < Real.exp 1000 := h4.trans (by rw [Real.one_lt_exp_iff]; norm_num)
  obtain ⟨r, s', a1, -, -, a2, -⟩ := C155_real_gas_any_refuted (base := noWater) (env := exSolidEnv exLiquid) rfl rfl (exSolid_bb _) hx wide_ok htab
    (by norm_num [exLiquid]) (by norm_num [exLiquid]) h0 (by simp [exLiquid]) (by simp [exLiquid]) hf h2 h3 h4.ne h5.ne 0 s
  exact ⟨r, s', a1, a2⟩

end ThermoFun.Engine

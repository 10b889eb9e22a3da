import Verif.Props.CarriedGas

/-!
C98 for the entropy and the enthalpy of the three gas equations of state (PRSV, SRK, PR78): by how much the derivative carried misses.
-/

open Filter Topology

namespace ThermoFun.Gas

/-- Residual entropy from residual enthalpy and Gibbs energy. -/
lemma entropy_of {m : Eos} {T P h : ℝ} {k : Nat → ℝ} {f : Fug} (hT : T ≠ 0) (hf : fugacityPT m T P k = some f) (hh : f.h = some h) :
    f.s = some ((h - f.g) / T) := by
  have pr : ∀ c Tc Pc p, prPure c T P Tc Pc p = some f → f.s = some ((h - f.g) / T) := by
    intro c Tc Pc p hf
    unfold prPure at hf
    rw [Option.map_eq_some_iff] at hf
    obtain ⟨r, -, rfl⟩ := hf
    dsimp only [prProps] at hh ⊢
    split_ifs at hh ⊢
    rw [Option.some.inj hh]
  cases m
  · exact pr _ _ _ _ hf
  · unfold fugacityPT srkPure at hf
    dsimp only at hf
    rw [Option.map_eq_some_iff] at hf
    obtain ⟨r, -, rfl⟩ := hf
    dsimp only [srkProps] at hh ⊢
    rw [Option.some.inj hh, sub_sub_cancel, mul_div_cancel_left₀ _ hT]
  · exact pr _ _ _ _ hf

/-- What is missing in the derivatives carried by H and S: the residual heat capacity, and it over the temperature. -/
def Short (m : Eos) (T P lo Pr : ℝ) (rest : List ℝ) (tail : List (List ℝ)) (crit : List ℝ) (tps : ℝ → TPS) : Prop :=
  ∃ (r : ℝ → TPS) (f : Fug), (∀ᶠ t in 𝓝 T, gasEntry m t P ((lo :: rest) :: tail) crit Pr (tps t) false = .ok (some (r t))) ∧
    fugacityPT m T (P / 1e5) (fun i => crit.getD i 0) = some f ∧
    HasDerivAt (fun t => (r t).H.val) ((r T).H.ddt + f.cp) T ∧ HasDerivAt (fun t => (r t).S.val) ((r T).S.ddt + f.cp / T) T ∧
    (f.cp ≠ 0 → ¬ HasDerivAt (fun t => (r t).H.val) (r T).H.ddt T ∧ ¬ HasDerivAt (fun t => (r t).S.val) (r T).S.ddt T)

lemma short_of {m : Eos} {T P lo Pr : ℝ} {rest : List ℝ} {tail : List (List ℝ)} {crit : List ℝ} {tps : ℝ → TPS} (hT : 0 < T) (hlo : lo < T) (hT2 : T < 1e4)
    (hP : 1e-5 ≤ P / 1e5) (hP2 : P / 1e5 < 1e5) (hl : 7 ≤ crit.length)
    (hH : HasDerivAt (fun t => (tps t).H.val) (tps T).H.ddt T) (hS : HasDerivAt (fun t => (tps t).S.val) (tps T).S.ddt T)
    (h1 : EntropyOK (fun t => fugacityPT m t (P / 1e5) fun i => crit.getD i 0) T) (h2 : HeatOK (fun t => fugacityPT m t (P / 1e5) fun i => crit.getD i 0) T) :
    Short m T P lo Pr rest tail crit tps := by
  have hP0 : P ≠ 0 := by rintro rfl; norm_num at hP
  obtain ⟨f1, hr, sr, ev1, a1, a2, a3, a4⟩ := h1
  obtain ⟨f, h, ev, hd⟩ := h2
  have e0 : f1 =ᶠ[𝓝 T] f := by
    filter_upwards [ev1, ev] with t x y
    exact Option.some.inj (x.symm.trans y.1)
  have hg : HasDerivAt (fun t => (f t).g) (-sr) T := a3.congr_of_eventuallyEq (e0.mono fun t ht => by dsimp only; rw [ht])
  have eT : f1 T = f T := e0.self_of_nhds
  rw [eT] at a1 a2 a4
  have hrT : h T = hr := Option.some.inj (ev.self_of_nhds.2.symm.trans a1)
  have hs : HasDerivAt (fun t => (h t - (f t).g) / t) ((f T).cp / T) T := by
    refine ((hd.fun_sub hg).fun_div (hasDerivAt_id' T) hT.ne').congr_deriv ?_
    rw [hrT, a4]
    field_simp
    ring
  have dH := hH.fun_add hd
  have dS := hS.fun_add hs
  refine ⟨fun t => increment (TS.temperature t) (pbar P) (f t) (h t) ((h t - (f t).g) / t) (tps t), f T, ?_, ev.self_of_nhds.1, dH, dS, fun hc => ⟨fun h => ?_, fun h => ?_⟩⟩
  · filter_upwards [ev, lt_mem_nhds hlo, gt_mem_nhds hT2, lt_mem_nhds hT] with t ht t1 t2 t3
    have hc : calcFugPure m lo t (P / 1e5) (fun i => crit.getD i 0) = some (f t) := by
      unfold calcFugPure
      rw [if_pos ⟨t1.le, t2, hP, hP2⟩]
      exact ht.1
    exact (entry_of hl hP0 hc ht.2 (entropy_of t3.ne' ht.1 ht.2)).1
  · have := dH.unique h
    exact hc (by
      change (tps T).H.ddt + (f T).cp = (tps T).H.ddt at this
      linarith)
  · have := dS.unique h
    change (tps T).S.ddt + (f T).cp / T = (tps T).S.ddt at this
    have h0 : (f T).cp / T = 0 := by linarith
    rcases div_eq_zero_iff.1 h0 with h0 | h0
    · exact hc h0
    · exact hT.ne' h0

/-- **C98** is violated by the enthalpy and entropy of the gas equations of state, for every record of a gas above its critical temperature (`C171_consistent_partial` has the same conditions):
the residual H and S are added as plain numbers.  The derivative carried by H is too small by the residual heat capacity, that carried by S by the residual heat capacity over T; wherever
the residual heat capacity is not zero neither is the derivative of the value. -/
theorem C98_gas_entropy_refuted (m : Eos) (T P lo Pr : ℝ) (rest : List ℝ) (tail : List (List ℝ)) (crit : List ℝ) (tps : ℝ → TPS)
    (hlo : lo < T) (hT2 : T < 1e4) (hP : 1e-5 ≤ P / 1e5) (hP2 : P / 1e5 < 1e5) (hl : 7 ≤ crit.length)
    (hH : HasDerivAt (fun t => (tps t).H.val) (tps T).H.ddt T) (hS : HasDerivAt (fun t => (tps t).S.val) (tps T).S.ddt T)
    (h : GasRec fun i => crit.getD i 0) (hT : 1.0001 * crit.getD 0 0 ≤ T) (hα : alphaOf m (crit.getD 2 0) * (Real.sqrt (T / crit.getD 0 0) - 1) < 1)
    (ha : 1.2 * ((parsOf m T fun i => crit.getD i 0).b * (Rgas * T)) + 2 * (parsOf m T fun i => crit.getD i 0).b ^ 2 * (P / 1e5) ≤ (parsOf m T fun i => crit.getD i 0).a)
    (hi : P / 1e5 ≠ eosOf m T (fun i => crit.getD i 0) (inflexionOf m T (P / 1e5) fun i => crit.getD i 0)) :
    Short m T P lo Pr rest tail crit tps := by
  have hTc : 0 < crit.getD 0 0 := h.Tc
  have hT0 : 0 < T := by linarith
  obtain ⟨-, h1, h2⟩ := C171_consistent_partial m T (P / 1e5) _ h hT (lt_of_lt_of_le (by norm_num) hP) hα ha hi
  exact short_of hT0 hlo hT2 hP hP2 hl hH hS h1 h2

/-- **C98** is violated by the enthalpy and entropy of the Soave-Redlich-Kwong equation, for every record at every temperature and pressure with a single volume. -/
theorem C98_srk_entropy_refuted (T P lo Pr : ℝ) (rest : List ℝ) (tail : List (List ℝ)) (crit : List ℝ) (tps : ℝ → TPS)
    (hT : 0 < T) (hlo : lo < T) (hT2 : T < 1e4) (hP : 1e-5 ≤ P / 1e5) (hP2 : P / 1e5 < 1e5) (hl : 7 ≤ crit.length)
    (hH : HasDerivAt (fun t => (tps t).H.val) (tps T).H.ddt T) (hS : HasDerivAt (fun t => (tps t).S.val) (tps T).S.ddt T)
    (hTc : 0 < crit.getD 0 0) (hPc : 0 < crit.getD 1 0)
    (hs : SrkSingle (parsOf .SRK T fun i => crit.getD i 0).a (parsOf .SRK T fun i => crit.getD i 0).b T (P / 1e5)) :
    Short .SRK T P lo Pr rest tail crit tps := by
  have ok := srk_ok (T := T) (P := P / 1e5) (k := fun i => crit.getD i 0) hT (lt_of_lt_of_le (by norm_num) hP) hTc hPc hs
  exact short_of hT hlo hT2 hP hP2 hl hH hS ok.1 ok.2

/-- **C98** is violated by the enthalpy and entropy of the Peng-Robinson equation of 1978, for every record at every temperature off the critical one and every pressure with a single volume:
below the critical temperature too. -/
theorem C98_pr78_entropy_refuted (T P lo Pr : ℝ) (rest : List ℝ) (tail : List (List ℝ)) (crit : List ℝ) (tps : ℝ → TPS)
    (hT : 0 < T) (hlo : lo < T) (hT2 : T < 1e4) (hP : 1e-5 ≤ P / 1e5) (hP2 : P / 1e5 < 1e5) (hl : 7 ≤ crit.length)
    (hH : HasDerivAt (fun t => (tps t).H.val) (tps T).H.ddt T) (hS : HasDerivAt (fun t => (tps t).S.val) (tps T).S.ddt T)
    (hTc : 0 < crit.getD 0 0) (hPc : 0 < crit.getD 1 0) (h1 : T ≠ crit.getD 0 0)
    (hα : 0 < 1 + pr78k (crit.getD 2 0) * (1 - Real.sqrt (T / crit.getD 0 0)))
    (hs : PrSingle (parsOf .PR78 T fun i => crit.getD i 0).a (parsOf .PR78 T fun i => crit.getD i 0).b T (P / 1e5)) :
    Short .PR78 T P lo Pr rest tail crit tps := by
  have ok := pr78_ok (T := T) (P := P / 1e5) (k := fun i => crit.getD i 0) hT (lt_of_lt_of_le (by norm_num) hP) hTc hPc h1 hα hs
  exact short_of hT hlo hT2 hP hP2 hl hH hS ok.1 ok.2

/-- **C98** is violated by the enthalpy and entropy of the Peng-Robinson-Stryjek-Vera equation in the same way; below the critical temperature for records with κ₁ = κ₂ = 0. -/
theorem C98_prsv_entropy_refuted (T P lo Pr : ℝ) (rest : List ℝ) (tail : List (List ℝ)) (crit : List ℝ) (tps : ℝ → TPS)
    (hT : 0 < T) (hlo : lo < T) (hT2 : T < 1e4) (hP : 1e-5 ≤ P / 1e5) (hP2 : P / 1e5 < 1e5) (hl : 7 ≤ crit.length)
    (hH : HasDerivAt (fun t => (tps t).H.val) (tps T).H.ddt T) (hS : HasDerivAt (fun t => (tps t).S.val) (tps T).S.ddt T)
    (hTc : 0 < crit.getD 0 0) (hPc : 0 < crit.getD 1 0) (h1 : T ≠ crit.getD 0 0) (hk : crit.getD 0 0 < T ∨ (crit.getD 3 0 = 0 ∧ crit.getD 4 0 = 0))
    (hα : 0 < 1 + k0S (crit.getD 2 0) * (1 - Real.sqrt (T / crit.getD 0 0)))
    (hs : PrSingle (parsOf .PRSV T fun i => crit.getD i 0).a (parsOf .PRSV T fun i => crit.getD i 0).b T (P / 1e5)) :
    Short .PRSV T P lo Pr rest tail crit tps := by
  have ok := prsv_ok (T := T) (P := P / 1e5) (k := fun i => crit.getD i 0) hT (lt_of_lt_of_le (by norm_num) hP) hTc hPc h1 hk hα hs
  exact short_of hT hlo hT2 hP hP2 hl hH hS ok.1 ok.2

/-- An ideal gas with the heat capacity 20 J/(mol K), near 216 K. -/
noncomputable def exHeat (t : ℝ) : TPS := { TPS.default with H := (20 : ℝ) * TS.temperature t, S := (20 / 216 : ℝ) * TS.temperature t }

/-- Neither H nor S of the gas of `exAr` carries its derivative: its residual heat capacity is not zero. -/
example : ∃ r : ℝ → TPS, (∀ᶠ t in 𝓝 216, gasEntry .SRK t (exP * 1e5) [[100, 6000]] exAr 1e5 (exHeat t) false = .ok (some (r t))) ∧
    ¬ HasDerivAt (fun t => (r t).H.val) (r 216).H.ddt 216 ∧ ¬ HasDerivAt (fun t => (r t).S.val) (r 216).S.ddt 216 := by
  have hPv := exP_val
  have hR := Rpos
  have hP : 0 < exP := by linarith
  have e : exP * 1e5 / 1e5 = exP := mul_div_cancel_right₀ _ (by norm_num)
  have hH : HasDerivAt (fun t => (exHeat t).H.val) (exHeat 216).H.ddt 216 := by
    simp only [exHeat, TS.op_val_mulL, TS.op_ddt_mulL, TS.val_temperature, TS.ddt_temperature]
    exact (hasDerivAt_id' (216 : ℝ)).const_mul 20
  have hS : HasDerivAt (fun t => (exHeat t).S.val) (exHeat 216).S.ddt 216 := by
    simp only [exHeat, TS.op_val_mulL, TS.op_ddt_mulL, TS.val_temperature, TS.ddt_temperature]
    exact (hasDerivAt_id' (216 : ℝ)).const_mul (20 / 216)
  obtain ⟨r, f, ev, hf, -, -, h⟩ := C98_srk_entropy_refuted 216 (exP * 1e5) 100 1e5 [6000] [] exAr exHeat (by norm_num) (by norm_num) (by norm_num)
    (by rw [e]; norm_num; linarith) (by rw [e]; norm_num; linarith) (by simp [exAr]) hH hS (by norm_num [exAr]) (by norm_num [exAr]) (by rw [e]; exact exAr_single)
  refine ⟨r, ev, h ?_⟩
  have hb : 0 < (srkAB 216 150 50 0).b := by rw [exAr_ab.2.1]; positivity
  have h2 := srkPure_one (p := srkAB 216 150 50 0) (T := 216) (P := exP) (by norm_num) hP (srk_a (by norm_num) 216) hb exAr_single.one
  rw [e] at hf
  have h3 : some f = some _ := hf.symm.trans h2
  have r := srk_rootOf (T := 216) (by norm_num) hP (srk_a (Tc := 150) (Pc := 50) (omg := 0) (by norm_num) 216) hb exAr_single.one
  rw [Option.some.inj h3, srkProps_cp (by norm_num) hP r, exAr_v]
  have := exAr_cp
  exact (by linarith : (0 : ℝ) < _).ne'

/-- The other theorem: carbon dioxide at 432 K and 100 bar with the equation of Peng and Robinson. -/
example : Short .PR78 432 1e7 200 1e5 [600] [] [300, 74, 0.225, 0, 0, 0, 0] exHeat := by
  have hH : HasDerivAt (fun t => (exHeat t).H.val) (exHeat 432).H.ddt 432 := by
    simp only [exHeat, TS.op_val_mulL, TS.op_ddt_mulL, TS.val_temperature, TS.ddt_temperature]
    exact (hasDerivAt_id' (432 : ℝ)).const_mul 20
  have hS : HasDerivAt (fun t => (exHeat t).S.val) (exHeat 432).S.ddt 432 := by
    simp only [exHeat, TS.op_val_mulL, TS.op_ddt_mulL, TS.val_temperature, TS.ddt_temperature]
    exact (hasDerivAt_id' (432 : ℝ)).const_mul (20 / 216)
  have e : (1e7 : ℝ) / 1e5 = 100 := by norm_num
  have c := exCrit_cond
  refine C98_gas_entropy_refuted .PR78 432 1e7 200 1e5 [600] [] _ exHeat (by norm_num) (by norm_num) (by norm_num) (by norm_num) (by simp) hH hS exCrit_rec ?_ ?_ ?_ ?_
  · change 1.0001 * exCrit 0 ≤ 432
    rw [ex0]; norm_num
  · exact c.2.2
  · rw [e]; exact c.1
  · rw [e]; exact c.2.1

/-- 243 K is 0.81 Tc. -/
lemma exCold_pr78 : PrSingle (pr78AB 243 (exCrit 0) (exCrit 1) (exCrit 2)).a (pr78AB 243 (exCrit 0) (exCrit 1) (exCrit 2)).b 243 740 := by
  unfold PrSingle pr78AB
  dsimp only
  rw [pr78k_le (by rw [ex2]; norm_num)]
  simp only [ex0, ex1, ex2]
  rw [sqrt_ex 0.9 (by norm_num) (by norm_num : (243 / 300 : ℝ) = 0.9 ^ 2)]
  obtain ⟨e1, e2⟩ := AB_num (c := 0.457235529) (cb := 0.0777960739) (q := 1 + (0.37464 + 1.54226 * 0.225 - 0.26992 * 0.225 ^ 2) * (1 - 0.9))
    (T := 243) (P := 740) (Tc := 300) (Pc := 74) (by norm_num) (by norm_num) (by norm_num)
  rw [e1, e2]
  unfold discr cubic
  norm_num

lemma exCold_prsv : PrSingle (prsvAB 243 (exCrit 0) (exCrit 1) (exCrit 2) (exCrit 3) (exCrit 4) (exCrit 5)).a
    (prsvAB 243 (exCrit 0) (exCrit 1) (exCrit 2) (exCrit 3) (exCrit 4) (exCrit 5)).b 243 740 := by
  rw [(prsv_soave (k1 := exCrit 3) (k2 := exCrit 4) (Or.inr ⟨rfl, rfl⟩)).1, prsv_b]
  unfold PrSingle k0S
  dsimp only
  simp only [ex0, ex1, ex2]
  rw [sqrt_ex 0.9 (by norm_num) (by norm_num : (243 / 300 : ℝ) = 0.9 ^ 2)]
  obtain ⟨e1, e2⟩ := AB_num (c := 0.457235) (cb := 0.077796)
    (q := 1 + (0.378893 + 1.4897153 * 0.225 - 0.17131848 * 0.225 ^ 2 + 0.0196554 * 0.225 ^ 3) * (1 - 0.9))
    (T := 243) (P := 740) (Tc := 300) (Pc := 74) (by norm_num) (by norm_num) (by norm_num)
  rw [e1, e2]
  unfold discr cubic
  norm_num

/-- The two Peng-Robinson theorems below the critical temperature, at 243 K and 740 bar. -/
example : Short .PR78 243 7.4e7 200 1e5 [600] [] [300, 74, 0.225, 0, 0, 0, 0] exHeat ∧ Short .PRSV 243 7.4e7 200 1e5 [600] [] [300, 74, 0.225, 0, 0, 0, 0] exHeat := by
  have hH : HasDerivAt (fun t => (exHeat t).H.val) (exHeat 243).H.ddt 243 := by
    simp only [exHeat, TS.op_val_mulL, TS.op_ddt_mulL, TS.val_temperature, TS.ddt_temperature]
    exact (hasDerivAt_id' (243 : ℝ)).const_mul 20
  have hS : HasDerivAt (fun t => (exHeat t).S.val) (exHeat 243).S.ddt 243 := by
    simp only [exHeat, TS.op_val_mulL, TS.op_ddt_mulL, TS.val_temperature, TS.ddt_temperature]
    exact (hasDerivAt_id' (243 : ℝ)).const_mul (20 / 216)
  have e : (7.4e7 : ℝ) / 1e5 = 740 := by norm_num
  have q : Real.sqrt ((243 : ℝ) / 300) = 0.9 := sqrt_ex 0.9 (by norm_num) (by norm_num : (243 / 300 : ℝ) = 0.9 ^ 2)
  constructor
  · refine C98_pr78_entropy_refuted 243 7.4e7 200 1e5 [600] [] _ exHeat (by norm_num) (by norm_num) (by norm_num) (by norm_num) (by norm_num) (by simp) hH hS
      (by norm_num) (by norm_num) (by norm_num) ?_ ?_
    · change 0 < 1 + pr78k 0.225 * (1 - Real.sqrt ((243 : ℝ) / 300))
      rw [q, pr78k_le (by norm_num)]; norm_num
    · rw [e]; exact exCold_pr78
  · refine C98_prsv_entropy_refuted 243 7.4e7 200 1e5 [600] [] _ exHeat (by norm_num) (by norm_num) (by norm_num) (by norm_num) (by norm_num) (by simp) hH hS
      (by norm_num) (by norm_num) (by norm_num) (Or.inr ⟨rfl, rfl⟩) ?_ ?_
    · change 0 < 1 + k0S 0.225 * (1 - Real.sqrt ((243 : ℝ) / 300))
      rw [q]; unfold k0S; norm_num
    · rw [e]; exact exCold_prsv

end ThermoFun.Gas

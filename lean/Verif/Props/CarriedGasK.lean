import Verif.Props.CarriedGasS

/-!
C98 for the entropy and the enthalpy of the gas equations of state without any condition on the residual heat capacity: when the derivatives carried are
right, and that they are not for the PRSV model with k1 below the critical temperature.
-/

open Filter Topology

namespace ThermoFun.Gas

/-- Away from the critical temperature there is a residual enthalpy. -/
lemma some_h {m : Eos} {T P : ℝ} {k : Nat → ℝ} {f : Fug} (h0 : 0 < k 0) (hT : T ≠ k 0) (hf : fugacityPT m T P k = some f) : f.h = some (f.h.getD 0) := by
  have hs := sqrt_ne_one h0 hT
  have pr : ∀ c Pc p, prPure c T P (k 0) Pc p = some f → f.h = some (f.h.getD 0) := by
    intro c Pc p hf
    unfold prPure at hf
    rw [Option.map_eq_some_iff] at hf
    obtain ⟨r, -, rfl⟩ := hf
    dsimp only [prProps]
    rw [if_neg hs]
    rfl
  cases m
  · exact pr _ _ _ hf
  · unfold fugacityPT srkPure at hf
    dsimp only at hf
    rw [Option.map_eq_some_iff] at hf
    obtain ⟨r, -, rfl⟩ := hf
    rfl
  · exact pr _ _ _ hf

/-- **C98** for H and S of the three gas equations of state: the exact condition, for every record and wherever the model answers near a temperature T other
than the critical one, with one volume or several.  The derivative carried by H is right exactly if the residual enthalpy has the derivative 0, that
carried by S exactly if the residual entropy has. -/
theorem C98_gas_entropy_partial (m : Eos) (T P lo Pr : ℝ) (rest : List ℝ) (tail : List (List ℝ)) (crit : List ℝ) (tps : ℝ → TPS)
    (hT : 0 < T) (hlo : lo < T) (hT2 : T < 1e4) (hP : 1e-5 ≤ P / 1e5) (hP2 : P / 1e5 < 1e5) (hl : 7 ≤ crit.length)
    (hH : HasDerivAt (fun t => (tps t).H.val) (tps T).H.ddt T) (hS : HasDerivAt (fun t => (tps t).S.val) (tps T).S.ddt T)
    (hTc : 0 < crit.getD 0 0) (h1 : T ≠ crit.getD 0 0) (f : ℝ → Fug) (hf : ∀ᶠ t in 𝓝 T, fugacityPT m t (P / 1e5) (fun i => crit.getD i 0) = some (f t)) :
    ∃ (r : ℝ → TPS) (h s : ℝ → ℝ), (∀ᶠ t in 𝓝 T, gasEntry m t P ((lo :: rest) :: tail) crit Pr (tps t) false = .ok (some (r t)) ∧
        (f t).h = some (h t) ∧ (f t).s = some (s t) ∧ s t = (h t - (f t).g) / t) ∧
      (HasDerivAt (fun t => (r t).H.val) (r T).H.ddt T ↔ HasDerivAt h 0 T) ∧ (HasDerivAt (fun t => (r t).S.val) (r T).S.ddt T ↔ HasDerivAt s 0 T) := by
  have hP0 : P ≠ 0 := by rintro rfl; norm_num at hP
  refine ⟨fun t => increment (TS.temperature t) (pbar P) (f t) ((f t).h.getD 0) (((f t).h.getD 0 - (f t).g) / t) (tps t), fun t => (f t).h.getD 0,
    fun t => ((f t).h.getD 0 - (f t).g) / t, ?_, ⟨fun h => ?_, fun h => ?_⟩, ⟨fun h => ?_, fun h => ?_⟩⟩
  · have c1 : ∀ᶠ t in 𝓝 T, t ≠ crit.getD 0 0 := isOpen_ne.mem_nhds h1
    filter_upwards [hf, c1, lt_mem_nhds hlo, gt_mem_nhds hT2, lt_mem_nhds hT] with t ht n1 t1 t2 t3
    have hh := some_h (k := fun i => crit.getD i 0) hTc n1 ht
    have hs := entropy_of t3.ne' ht hh
    have hc : calcFugPure m lo t (P / 1e5) (fun i => crit.getD i 0) = some (f t) := by
      unfold calcFugPure
      rw [if_pos ⟨t1.le, t2, hP, hP2⟩]
      exact ht
    exact ⟨(entry_of hl hP0 hc hh hs).1, hh, hs, rfl⟩
  · have d := h.fun_sub hH
    change HasDerivAt (fun t => (tps t).H.val + (f t).h.getD 0 - (tps t).H.val) ((tps T).H.ddt - (tps T).H.ddt) T at d
    simpa using d
  · have d := hH.fun_add h
    rw [add_zero] at d
    exact d
  · have d := h.fun_sub hS
    change HasDerivAt (fun t => (tps t).S.val + ((f t).h.getD 0 - (f t).g) / t - (tps t).S.val) ((tps T).S.ddt - (tps T).S.ddt) T at d
    simpa using d
  · have d := hS.fun_add h
    rw [add_zero] at d
    exact d

/-- **C98** is violated by the PRSV model with k1 below the critical temperature: for every record with k1 ≠ 0 and k2 = 0 and every pressure with a single volume
(off the one temperature at which k does not change, as in `C102_prsv_refuted`), H and S do not both carry their derivatives, whatever the residual heat capacity. -/
theorem C98_prsv_k1_refuted (T P lo Pr : ℝ) (rest : List ℝ) (tail : List (List ℝ)) (crit : List ℝ) (tps : ℝ → TPS)
    (hT : 0 < T) (hlo : lo < T) (hT2 : T < 1e4) (hP : 1e-5 ≤ P / 1e5) (hP2 : P / 1e5 < 1e5) (hl : 7 ≤ crit.length)
    (hH : HasDerivAt (fun t => (tps t).H.val) (tps T).H.ddt T) (hS : HasDerivAt (fun t => (tps t).S.val) (tps T).S.ddt T)
    (hPc : 0 < crit.getD 1 0) (h1 : T < crit.getD 0 0) (hk1 : crit.getD 3 0 ≠ 0) (hk2 : crit.getD 4 0 = 0)
    (hdk : (0.7 - T / crit.getD 0 0) / (2 * Real.sqrt (T / crit.getD 0 0)) ≠ 1 + Real.sqrt (T / crit.getD 0 0))
    (hpos : 0 < 1 + (k0S (crit.getD 2 0) + crit.getD 3 0 * (1 + Real.sqrt (T / crit.getD 0 0)) * (0.7 - T / crit.getD 0 0)) * (1 - Real.sqrt (T / crit.getD 0 0)))
    (hs : PrSingle (parsOf .PRSV T fun i => crit.getD i 0).a (parsOf .PRSV T fun i => crit.getD i 0).b T (P / 1e5)) :
    ∃ r : ℝ → TPS, (∀ᶠ t in 𝓝 T, gasEntry .PRSV t P ((lo :: rest) :: tail) crit Pr (tps t) false = .ok (some (r t))) ∧
      ¬ (HasDerivAt (fun t => (r t).H.val) (r T).H.ddt T ∧ HasDerivAt (fun t => (r t).S.val) (r T).S.ddt T) := by
  obtain ⟨f, h', s', g', ev, w1, w2, w3, w4⟩ :=
    C102_prsv_refuted T (P / 1e5) (fun i => crit.getD i 0) hT (lt_of_lt_of_le (by norm_num) hP) hPc h1 hk1 hk2 hdk hpos hs
  obtain ⟨r, h, s, ev2, i1, i2⟩ := C98_gas_entropy_partial .PRSV T P lo Pr rest tail crit tps hT hlo hT2 hP hP2 hl hH hS (hT.trans h1) h1.ne f ev
  refine ⟨r, ev2.mono fun t ht => ht.1, fun ⟨a, b⟩ => w4.1 ?_⟩
  have dh := i1.1 a
  have ds := i2.1 b
  have e : (fun t => (f t).g) =ᶠ[𝓝 T] fun t => h t - t * s t := by
    filter_upwards [ev2, lt_mem_nhds hT] with t ht t0
    rw [ht.2.2.2, mul_div_cancel₀ _ t0.ne', sub_sub_cancel]
  have d := (dh.fun_sub ((hasDerivAt_id' T).fun_mul ds)).congr_of_eventuallyEq e
  have hsT : s T = s' := Option.some.inj (ev2.self_of_nhds.2.2.1.symm.trans w2)
  rw [← hsT, w3.unique d]
  ring

/-- Both theorems: a gas like water at 416 K and 1000 bar. -/
example : ∃ r : ℝ → TPS, (∀ᶠ t in 𝓝 416, gasEntry .PRSV t 1e8 [[200, 600]] [650, 221, 0.3438, -0.06635, 0, 0, 0] 1e5 (exHeat t) false = .ok (some (r t))) ∧
    ¬ (HasDerivAt (fun t => (r t).H.val) (r 416).H.ddt 416 ∧ HasDerivAt (fun t => (r t).S.val) (r 416).S.ddt 416) := by
  have hH : HasDerivAt (fun t => (exHeat t).H.val) (exHeat 416).H.ddt 416 := by
    simp only [exHeat, TS.op_val_mulL, TS.op_ddt_mulL, TS.val_temperature, TS.ddt_temperature]
    exact (hasDerivAt_id' (416 : ℝ)).const_mul 20
  have hS : HasDerivAt (fun t => (exHeat t).S.val) (exHeat 416).S.ddt 416 := by
    simp only [exHeat, TS.op_val_mulL, TS.op_ddt_mulL, TS.val_temperature, TS.ddt_temperature]
    exact (hasDerivAt_id' (416 : ℝ)).const_mul (20 / 216)
  have e : (1e8 : ℝ) / 1e5 = 1000 := by norm_num
  have q : Real.sqrt ((416 : ℝ) / 650) = 0.8 := sqrt_ex 0.8 (by norm_num) (by norm_num : (416 / 650 : ℝ) = 0.8 ^ 2)
  refine C98_prsv_k1_refuted 416 1e8 200 1e5 [600] [] [650, 221, 0.3438, -0.06635, 0, 0, 0] exHeat (by norm_num) (by norm_num) (by norm_num) (by norm_num) (by norm_num)
    (by simp) hH hS (by norm_num) (by norm_num) (by norm_num) (by norm_num) ?_ exWater_pos (by rw [e]; exact exWater_single)
  change (0.7 - (416 : ℝ) / 650) / (2 * Real.sqrt ((416 : ℝ) / 650)) ≠ 1 + Real.sqrt ((416 : ℝ) / 650)
  rw [q]
  norm_num

end ThermoFun.Gas

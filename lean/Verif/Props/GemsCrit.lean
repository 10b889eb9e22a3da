import Verif.Lemmas.GemsCrit

/-!
# Near-critical water of the gems code

Property theorems about WaterHGK-JNgems.cpp in the region of the Levelt Sengers equation of state.
-/

namespace ThermoFun

namespace Gems

namespace Crit

open WP (el)

/-! ### C141: the state handed out is the state found -/

theorem satLVS_high (fuel : ℕ) {s : Reg} (hi : s.isat = false) (ho : s.iopt ≠ 1) (hP : s.P - 1.0e-12 > Pc) : satLVS fuel s = some s := by
  cases s
  simp_all [satLVS]

/-- A single-phase calculation that skips the saturation check ends after one round. -/
theorem eqn_one (tt : Triple) (fuel n : ℕ) {T P : ℝ} (hP : 22.0460001 ≤ P) :
    eqnLoop tt fuel (n + 1) (start false T P) = some (onePhase tt (start false T P)) := by
  have h1 : satLVS fuel (start false T P) = some (start false T P) := by
    refine satLVS_high fuel rfl (by simp [start]) ?_
    have : (start false T P).P = P := rfl
    rw [this, Pc]; norm_num at hP ⊢; linarith
  have h2 : (start false T P).isat = false := rfl
  have h3 : (onePhase tt (start false T P)).sW = false := by simp [onePhase, start]
  simp [eqnLoop, round, h1, h2, h3]

/-- What is left behind then. -/
theorem eqn_state (tt : Triple) (T P : ℝ) :
    (onePhase tt (start false T P)).dens1 = 0 ∧ (onePhase tt (start false T P)).wl = WProps.zero ∧ (onePhase tt (start false T P)).spcIsat = false ∧
      (onePhase tt (start false T P)).P = P ∧ (onePhase tt (start false T P)).dens0 = (den0 (start false T P).m T P).1.DH2O := by
  simp [onePhase, start]

theorem pass_D (m : Mem) (rho rhodi dt y1 den : ℝ) : (pass m rho rhodi dt y1 den).1.DH2O = m.DH2O := by simp [pass, Mem.ss]

theorem convLoop_D (rho rhodi dt : ℝ) (n : ℕ) : ∀ (m : Mem) (y1 d1 d2 e1 e2 : ℝ), (convLoop rho rhodi dt n m y1 d1 d2 e1 e2).DH2O = m.DH2O := by
  induction n with
  | zero => intros; rfl
  | succ n ih =>
    intro m y1 d1 d2 e1 e2
    rw [convLoop]
    split_ifs
    · simp [Mem.keep, pass_D]
    · simp [ih, Mem.keep, pass_D]

theorem conver_D (m : Mem) (rho Tee : ℝ) : (conver m rho Tee).1.DH2O = m.DH2O := by
  unfold conver
  simp only
  split_ifs <;> simp [Mem.keep, Mem.ss, pass_D, convLoop_D]

theorem pfind_D (m : Mem) (isat : Bool) (T D : ℝ) : (Pfind m isat T D).1.DH2O = m.DH2O := by
  unfold Pfind
  simp only [Mem.aux]
  cases isat <;> simp only [Bool.true_eq_false, if_true, if_false] <;> split_ifs <;> simp [Mem.ss, conver_D]

/-- The density stays within its bounds. -/
theorem denLoop_bounds (T P : ℝ) (n : ℕ) : ∀ m : Mem, Dmin ≤ m.DH2O → m.DH2O ≤ Dmax →
    Dmin ≤ (denLoop T P n m).1.DH2O ∧ (denLoop T P n m).1.DH2O ≤ Dmax := by
  have hmm : Dmin ≤ Dmax := by norm_num [Dmin, Dmax]
  induction n with
  | zero => intro m h1 h2; exact ⟨h1, h2⟩
  | succ n ih =>
    intro m h1 h2
    rw [denLoop]
    simp only
    have hD := pfind_D m false T m.DH2O
    split_ifs with a b c d e f g h i j
    all_goals first
      | (rw [hD]; exact ⟨h1, h2⟩)
      | (refine ih _ ?_ ?_ <;> dsimp only <;> linarith)
      | (constructor <;> dsimp only <;> linarith)

theorem den0_bounds (m : Mem) (T P : ℝ) : 199.775 ≤ (den0 m T P).1.DH2O ∧ (den0 m T P).1.DH2O ≤ 420.04 := by
  have h := denLoop_bounds T P 20 { m with DH2O := rhoC } (by norm_num [Dmin, rhoC]) (by norm_num [Dmax, rhoC])
  refine ⟨le_trans (by norm_num [Dmin]) h.1, le_trans h.2 (by norm_num [Dmax])⟩

theorem PsHGK_crit {t : ℝ} (h0 : 646.5 ≤ t) (h1 : t ≤ 647.067) : PsHGK t ≤ 22.0455 := by
  unfold PsHGK
  rw [if_neg (by norm_num; linarith)]
  simp only
  have hv0 : 0 < t / 647.25e0 := by positivity
  have hv1 : t / 647.25e0 ≤ 1 - 0.00028 := by rw [div_le_iff₀ (by norm_num)]; norm_num; linarith
  have hv2 : 1 - 0.00117 ≤ t / 647.25e0 := by rw [le_div_iff₀ (by norm_num)]; norm_num; linarith
  have hw : |1 - t / 647.25e0| = 1 - t / 647.25e0 := abs_of_pos (by linarith)
  have hw3 : 0.0002827 ≤ 1 - t / 647.25e0 := by
    have : t / 647.25e0 ≤ 647.067 / 647.25 := by rw [div_le_div_iff₀ (by norm_num) (by norm_num)]; norm_num; linarith
    have : (647.067 / 647.25 : ℝ) ≤ 1 - 0.0002827 := by norm_num
    linarith
  rw [hw]
  generalize t / 647.25e0 = v at *
  obtain ⟨q, hq, hq0⟩ : ∃ q : ℝ, 1 - v = q ^ 2 ∧ 0 < q := ⟨Real.sqrt (1 - v), (Real.sq_sqrt (by linarith)).symm, Real.sqrt_pos.2 (by linarith)⟩
  rw [hq] at hw3
  have hq9 : q ^ 2 ≤ 0.00117 := by rw [← hq]; linarith
  rw [hq]
  have hp (i : ℕ) : (q ^ 2 : ℝ) ^ (((i : ℝ) + 1 + 1) / 2) = q ^ (i + 2) := by
    rw [← Real.rpow_natCast q 2, ← Real.rpow_mul hq0.le, ← Real.rpow_natCast q (i + 2)]
    congr 1; push_cast; ring
  simp only [hp]
  have hq1 : q ≤ 0.0343 := by
    by_contra h
    have : (0.0343 : ℝ) ^ 2 ≤ q ^ 2 := pow_le_pow_left₀ (by norm_num) (by linarith) 2
    norm_num at this hq9
    linarith
  have hb : (List.range 8).foldl (fun b i => b + el psA i * q ^ (i + 2)) 0 ≤ -7.79 * q ^ 2 := by
    have e : (List.range 8).foldl (fun b i => b + el psA i * q ^ (i + 2)) 0 = q ^ 2 * (-7.8889166 + 2.5514255 * q - 6.716169 * q ^ 2 + 33.239495 * q ^ 3
        - 105.38479 * q ^ 4 + 174.35319 * q ^ 5 - 148.39348 * q ^ 6 + 48.631602 * q ^ 7) := by
      norm_num [List.range, List.range.loop, el_num, psA]; ring
    rw [e]
    have g3 : q ^ 3 ≤ 0.0000404 := by
      calc q ^ 3 ≤ 0.0343 ^ 3 := pow_le_pow_left₀ hq0.le hq1 3
        _ ≤ _ := by norm_num
    have g5 : q ^ 5 ≤ 0.0000001 := by
      calc q ^ 5 ≤ 0.0343 ^ 5 := pow_le_pow_left₀ hq0.le hq1 5
        _ ≤ _ := by norm_num
    have g7 : q ^ 7 ≤ 0.0000001 := by
      calc q ^ 7 ≤ 0.0343 ^ 7 := pow_le_pow_left₀ hq0.le hq1 7
        _ ≤ _ := by norm_num
    have g2 : 0 ≤ q ^ 2 := by positivity
    have g4 : 0 ≤ q ^ 4 := by positivity
    have g6 : 0 ≤ q ^ 6 := by positivity
    have : -7.8889166 + 2.5514255 * q - 6.716169 * q ^ 2 + 33.239495 * q ^ 3 - 105.38479 * q ^ 4 + 174.35319 * q ^ 5 - 148.39348 * q ^ 6 + 48.631602 * q ^ 7 ≤ -7.79 := by
      linarith
    nlinarith
  have hb2 : (List.range 8).foldl (fun b i => b + el psA i * q ^ (i + 2)) 0 / v ≤ -0.0022 := by
    rw [div_le_iff₀ hv0]
    nlinarith
  have hexp : Real.exp ((List.range 8).foldl (fun b i => b + el psA i * q ^ (i + 2)) 0 / v) ≤ 1 / 1.0022 := by
    refine (Real.exp_le_exp.2 hb2).trans ?_
    rw [Real.exp_neg, one_div]
    exact inv_anti₀ (by norm_num) (by have := Real.add_one_le_exp (0.0022 : ℝ); linarith)
  have : (22.093e0 : ℝ) * (1 / 1.0022) ≤ 22.0455 := by norm_num
  have h9 := mul_le_mul_of_nonneg_left hexp (by norm_num : (0 : ℝ) ≤ 22.093e0)
  linarith

/-- In the near-critical region above the critical pressure, the calculation ends after one round of `LVSeqn`.  `T` in °C, `P` in bar. -/
theorem calc_one (wtr : Triple) (fuel n : ℕ) {T P : ℝ} (hT : 646.5 ≤ T + 273.15) (hT' : T + 273.15 ≤ 695) (hP : 220.460001 ≤ P)
    (hP' : P ≤ 215.814 + 3.80293 * (T + 273.15 - 645.3)) (hPT : 209.9458 + 1.757776 * (T + 273.15 - 643) ≤ P) :
    calculate (lvs (n + 1)) wtr fuel T P = some (.done (finish (T + 273.15) (onePhase (tpset wtr) (start false (T + 273.15) (P / 10)))) P) := by
  have h1 : ¬ (T < 0.01 ∧ T ≥ 0) := by rintro ⟨a, b⟩; norm_num at hT a; linarith
  have h2 : ¬ P < 6.11732e-3 := by norm_num; norm_num at hP; linarith
  have hps : (if T + 273.15 ≤ 647.067e0 then PsHGK (T + 273.15) * 10 else 0) ≤ 220.455 := by
    split_ifs with h
    · have := PsHGK_crit hT (by norm_num at h ⊢; linarith)
      linarith
    · norm_num
  have hps0 : 0 ≤ (if T + 273.15 ≤ 647.067e0 then PsHGK (T + 273.15) * 10 else 0) := by
    split_ifs with h
    · unfold PsHGK; split_ifs <;> positivity
    · exact le_rfl
  have h3 : ¬ (|P| = 0 ∨ |(|P| - |if T + 273.15 ≤ 647.067e0 then PsHGK (T + 273.15) * 10 else 0|)| < 1e-14) := by
    rw [abs_of_pos (by linarith : 0 < P), abs_of_nonneg hps0, abs_of_pos (by linarith)]
    rintro (h | h)
    · linarith
    · norm_num at h hps hP; linarith
  have h4 : valTP T P := by
    unfold valTP
    norm_num at hT hT' hP hP'
    refine ⟨?_, fun h => ?_, fun _ _ => ?_, fun _ h => ?_⟩
    · rintro (h | h | h | h) <;> norm_num at h <;> linarith
    · norm_num; linarith
    · norm_num; linarith
    · exact absurd (by norm_num; linarith) h
  have h5 : crtreg0 (lvs (n + 1)) (T + 273.15e0) (P / 10) := by
    norm_num at hT hT' hP hP' hPT
    refine ⟨?_, ?_, Or.inl ?_⟩
    · rintro (h | h) <;> norm_num at h <;> linarith
    · norm_num; linarith
    · norm_num; linarith
  have h6 : (22.0460001 : ℝ) ≤ P / 10 := by norm_num at *; linarith
  have e : (273.15e0 : ℝ) = 273.15 := by norm_num
  unfold calculate
  have e1 : (if T < 0.01 ∧ T ≥ 0 then (0.01 : ℝ) else T) = T := if_neg h1
  have e2 : (if P < 6.11732e-3 then (0 : ℝ) else P) = P := if_neg h2
  simp only [e1, e2, if_neg h3, not_true_eq_false, h4, if_false]
  rw [if_pos (by rw [e1, e2]; exact h5)]
  simp only [lvs, eqn_one _ _ n h6, Option.map_some]

/-- **C141 (counterexample, on a whole region).**  Between 646.5 K and the critical temperature, at every pressure above the critical one that belongs to the near-critical
region, the density handed out for the liquid is 0 (its volume is 1/0), and for the other phase all energies are 0 and so is the permittivity: the search has found a
density between 199 and 421 kg/m³, but `Dens[1]` and `wr` are what is read (WaterHGK-JNgems.cpp:14, 25, 487-491).  `T` in K and `P` in Pa. -/
theorem C141_refuted (wtr : Triple) (fuel n : ℕ) {T P : ℝ} (hT : 646.5 ≤ T) (hT' : T ≤ 647.067) (hP : 22046000.1 ≤ P)
    (hP' : P ≤ 21581400 + 380293 * (T - 645.3)) :
    ∃ s : Sta, waterHGK (lvs (n + 1)) wtr fuel T P = some (.done s (P / 1e05)) ∧ (s.solv 0).density = 0 ∧ (s.solv 0).pressure = P ∧
      (s.thermo 1).G = 0 ∧ (s.thermo 1).H = 0 ∧ (s.thermo 1).S = 0 ∧ (s.thermo 1).Cp = 0 ∧ (s.electro 1).epsilon = 0 ∧
      199 < (s.solv 1).density ∧ (s.solv 1).density < 421 := by
  have e : T - 273.15 + 273.15 = T := by ring
  have hc := calc_one wtr fuel n (T := T - 273.15) (P := P / 1e05) (by rw [e]; exact hT) (by rw [e]; linarith) (by norm_num at *; linarith) (by rw [e]; norm_num at *; linarith)
    (by rw [e]; norm_num at *; linarith)
  rw [e] at hc
  obtain ⟨d1, d2, d3, d4, d5⟩ := eqn_state (tpset wtr) T (P / 1e05 / 10)
  have hb := den0_bounds (start false T (P / 1e05 / 10)).m T (P / 1e05 / 10)
  have hf : finish T (onePhase (tpset wtr) (start false T (P / 1e05 / 10))) = ⟨false, P / 1e05 / 10 * 10, (onePhase (tpset wtr) (start false T (P / 1e05 / 10))).dens0 / 1.0e3, 0,
      (onePhase (tpset wtr) (start false T (P / 1e05 / 10))).wr, WProps.zero⟩ := by
    unfold finish
    rw [if_pos (by rw [Tc_val]; exact hT'), d1, d2, d3, d4]
    simp
  refine ⟨_, hc, ?_⟩
  rw [hf, d5]
  simp only [Sta.solv, Sta.thermo, Sta.electro, Sta.pick, WProps.zero]
  generalize (den0 (start false T (P / 1e05 / 10)).m T (P / 1e05 / 10)).1.DH2O = D at hb
  norm_num at hb ⊢
  obtain ⟨hb1, hb2⟩ := hb
  exact ⟨by linarith, by linarith⟩

/-- The region is not empty: 647 K and 22.1 MPa. -/
example : (646.5 : ℝ) ≤ 647 ∧ (647 : ℝ) ≤ 647.067 ∧ (22046000.1 : ℝ) ≤ 22100000 ∧ (22100000 : ℝ) ≤ 21581400 + 380293 * (647 - 645.3) := by norm_num

/-- **C141 (partial).**  Above the critical temperature, in the near-critical region above the critical pressure: both phases are handed out as the same state, its pressure
is the one asked for, its density lies between the bounds of the search, and volume and density agree.  Missing: temperatures up to the critical one (refuted), pressures
up to the critical one, and that the density found belongs to the pressure (the search gives up after 20 rounds).  `T` in K and `P` in Pa. -/
theorem C141_partial (wtr : Triple) (fuel n : ℕ) {T P : ℝ} (hT : 647.067 < T) (hT' : T ≤ 695) (hP : 22046000.1 ≤ P)
    (hP' : P ≤ 21581400 + 380293 * (T - 645.3)) (hPT : 20994580 + 175777.6 * (T - 643) ≤ P) :
    ∃ s : Sta, waterHGK (lvs (n + 1)) wtr fuel T P = some (.done s (P / 1e05)) ∧ s.solv 0 = s.solv 1 ∧ s.thermo 0 = s.thermo 1 ∧ s.electro 0 = s.electro 1 ∧
      (s.solv 0).pressure = P ∧ 199.775 ≤ (s.solv 0).density ∧ (s.solv 0).density ≤ 420.04 ∧ (s.thermo 0).V * (s.solv 0).density = 1801.5268 := by
  have e : T - 273.15 + 273.15 = T := by ring
  have hc := calc_one wtr fuel n (T := T - 273.15) (P := P / 1e05) (by rw [e]; linarith) (by rw [e]; linarith) (by norm_num at *; linarith) (by rw [e]; norm_num at *; linarith)
    (by rw [e]; norm_num at *; linarith)
  rw [e] at hc
  obtain ⟨d1, d2, d3, d4, d5⟩ := eqn_state (tpset wtr) T (P / 1e05 / 10)
  have hb := den0_bounds (start false T (P / 1e05 / 10)).m T (P / 1e05 / 10)
  have hf : finish T (onePhase (tpset wtr) (start false T (P / 1e05 / 10))) = ⟨false, P / 1e05 / 10 * 10, (onePhase (tpset wtr) (start false T (P / 1e05 / 10))).dens0 / 1.0e3,
      (onePhase (tpset wtr) (start false T (P / 1e05 / 10))).dens0 / 1.0e3,
      (onePhase (tpset wtr) (start false T (P / 1e05 / 10))).wr, (onePhase (tpset wtr) (start false T (P / 1e05 / 10))).wr⟩ := by
    unfold finish
    rw [if_neg (by rw [Tc_val]; linarith), d3, d4]
  refine ⟨_, hc, ?_⟩
  rw [hf, d5]
  simp only [Sta.solv, Sta.thermo, Sta.electro, Sta.pick]
  generalize (den0 (start false T (P / 1e05 / 10)).m T (P / 1e05 / 10)).1.DH2O = D at hb
  norm_num at hb ⊢
  obtain ⟨hb1, hb2⟩ := hb
  have hD : D ≠ 0 := by linarith
  refine ⟨by linarith, by linarith, ?_⟩
  field_simp
  norm_num

/-- 660 K and 25 MPa. -/
example : (647.067 : ℝ) < 660 ∧ (660 : ℝ) ≤ 695 ∧ (22046000.1 : ℝ) ≤ 25000000 ∧ (25000000 : ℝ) ≤ 21581400 + 380293 * (660 - 645.3) ∧
    (20994580 + 175777.6 * (660 - 643) : ℝ) ≤ 25000000 := by norm_num

/-! ### C142: the near-critical calculation at saturation ends -/

/-- Once the flag of the loop is set, it stays set. -/
theorem round_sW (tt : Triple) (fuel : ℕ) {s s' : Reg} (h : s.sW = true) (hr : round tt fuel s = some s') : s'.sW = true := by
  obtain ⟨s1, h1, rfl⟩ := Option.map_eq_some_iff.1 hr
  have hs : s1.sW = true := by
    unfold satLVS at h1
    simp only at h1
    generalize (if s.iopt = 1 then Pfind s.m s.isat s.T s.m.DH2O else (s.m, s.P)) = q0 at h1
    split_ifs at h1 with a b
    · obtain ⟨q, -, h2⟩ := Option.bind_eq_some_iff.1 h1
      obtain ⟨T, -, rfl⟩ := Option.map_eq_some_iff.1 h2
      exact h
    · obtain rfl := Option.some.inj h1
      exact h
    · obtain ⟨q, -, rfl⟩ := Option.map_eq_some_iff.1 h1
      split
      · split_ifs <;> exact h
      · exact h
  split_ifs
  · unfold twoPhase
    simp only
    split_ifs
    · rfl
    · exact hs
  · unfold onePhase
    simp only
    split_ifs <;> exact hs

theorem eqn_never (tt : Triple) (fuel n : ℕ) : ∀ {s : Reg}, s.sW = true → eqnLoop tt fuel n s = none := by
  induction n with
  | zero => intros; rfl
  | succ n ih =>
    intro s h
    rw [eqnLoop]
    cases hr : round tt fuel s with
    | none => rfl
    | some s' =>
      have := round_sW tt fuel h hr
      simp [this, ih this]

/-- The search for the saturation temperature at the critical pressure: the first step passes the critical point and is cut off there. -/
theorem Ts_crit (fuel : ℕ) (m : Mem) : TsLVS fuel m true (pS Tc) = none ∨ ∃ m', TsLVS fuel m true (pS Tc) = some ((Pfind m' true Tc rhoC).1, some Tc) := by
  have hc := Tc_val
  unfold TsLVS
  cases fuel with
  | zero => exact Or.inl rfl
  | succ fuel =>
    have e1 : (Tc - 1.0e0 : ℝ) = Tc - 1 := by norm_num
    have ea : adj (Tc - 1) = Tc - 1 := by norm_num [adj]
    have hs := slopeS_bounds (T := Tc - 1) (by rw [hc]; norm_num) (by linarith)
    have ho := overshoot
    have hd : (pS (Tc - 1) - pS Tc) / slopeS (Tc - 1) ≤ -1 := by
      rw [div_le_iff₀ (by linarith)]; linarith
    rw [e1, tsLoop_succ _ _ _ _ (by rw [hc]; norm_num) (by linarith), ea]
    have en : tsNext (pS Tc) (Tc - 1) = Tc := by
      unfold tsNext
      simp only [ea]
      split_ifs with h
      · rfl
      · linarith
    rw [en, if_pos]
    · cases fuel with
      | zero => exact Or.inl rfl
      | succ fuel =>
        right
        have ht := slopeS_bounds (T := Tc) (by rw [hc]; norm_num) le_rfl
        rw [tsLoop_succ _ _ _ _ (by rw [hc]; norm_num) le_rfl, adj_Tc]
        have en2 : tsNext (pS Tc) Tc = Tc := by unfold tsNext; simp [adj_Tc]
        rw [en2, if_neg]
        · exact ⟨_, rfl⟩
        · simp; norm_num
    · right
      have hp : 0 < Tc := by rw [hc]; norm_num
      have h9 : (1.0e-8 : ℝ) * |Tc| < 1 := by rw [abs_of_pos hp, hc]; norm_num
      have h10 : 1 ≤ |(pS (Tc - 1) - pS Tc) / slopeS (Tc - 1)| := by
        rw [abs_of_neg (by linarith)]; linarith
      rw [abs_div, gt_iff_lt, lt_div_iff₀ (abs_pos.2 hp.ne')]
      linarith

theorem thm_keeps (m : Mem) (isat : Bool) (T : ℝ) : (thmLVS m isat T).1.Dliq = m.Dliq ∧ (thmLVS m isat T).1.Dvap = m.Dvap := by
  unfold thmLVS
  simp only
  constructor <;> (split_ifs <;> simp [Mem.ss, Mem.aux])

theorem props_keeps (tt : Triple) (m : Mem) (isat : Bool) (T P : ℝ) : (propsLVS tt m isat T P).1.Dliq = m.Dliq ∧ (propsLVS tt m isat T P).1.Dvap = m.Dvap := by
  have := thm_keeps m isat T
  simpa [propsLVS, dimLVS] using this

/-- The two densities at saturation. -/
theorem den1_gap (m : Mem) (T : ℝ) : (den1 m T).Dliq - (den1 m T).Dvap = 2 * rhoC * (xk 0 * m.r1 ^ (cbe 0) + xk 1 * m.r1 ^ (cbe 1)) := by
  simp only [den1, Mem.ss]; ring

/-- `s` with other members, temperature and pressure. -/
def Reg.put (s : Reg) (m : Mem) (T P : ℝ) : Reg := { s with m := m, T := T, P := P }

theorem Reg.put_isat (s : Reg) (m : Mem) (T P : ℝ) : (s.put m T P).isat = s.isat := rfl
theorem Reg.put_m (s : Reg) (m : Mem) (T P : ℝ) : (s.put m T P).m = m := rfl

/-- `LVSsat` at saturation. -/
theorem satLVS_sat (fuel : ℕ) (T P : ℝ) : satLVS fuel (start true T P) = (TsLVS fuel (Pfind (start true T P).m true T 0).1 true (pS (adj T))).bind fun a => a.2.map fun T' =>
    (start true T P).put a.1 T' (pS (adj T)) := by
  have h1 : (start true T P).iopt = 1 := rfl
  have h2 : (start true T P).isat = true := rfl
  have h3 : (start true T P).T = T := rfl
  have h4 : (start true T P).m.DH2O = 0 := rfl
  unfold satLVS
  simp only [h1, h2, h3, h4, if_true, pfind_p]
  simp only [Reg.put, h1, h2]

/-- What is left by the first round at saturation. -/
theorem twoPhase_sW (tt : Triple) (s : Reg) (h : s.sW = false) : (twoPhase tt s).sW = decide (2 * rhoC * (xk 0 * s.m.r1 ^ (cbe 0) + xk 1 * s.m.r1 ^ (cbe 1)) = 0) := by
  unfold twoPhase
  simp only
  have k := fun m => props_keeps tt m true s.T s.P
  have e : (propsLVS tt { (propsLVS tt { den1 s.m s.T with th1 := -1 } true s.T s.P).1 with th1 := 1 } true s.T s.P).1.Dliq =
      (propsLVS tt { (propsLVS tt { den1 s.m s.T with th1 := -1 } true s.T s.P).1 with th1 := 1 } true s.T s.P).1.Dvap ↔
      2 * rhoC * (xk 0 * s.m.r1 ^ (cbe 0) + xk 1 * s.m.r1 ^ (cbe 1)) = 0 := by
    rw [← den1_gap s.m s.T, (k _).1, (k _).2, sub_eq_zero]
    simp only [(k _).1, (k _).2]
  split_ifs with hd
  · simp [e.1 hd]
  · have := fun h => hd (e.2 h)
    simp only [h]
    symm
    simpa using this

/-- The first round at saturation, when the phases differ. -/
theorem twoPhase_eq (tt : Triple) (s : Reg) (h : (twoPhase tt s).sW = false) : twoPhase tt s =
    { s with
      dens0 := (den1 s.m s.T).Dliq, dens1 := (den1 s.m s.T).Dvap
      wr := (propsLVS tt { den1 s.m s.T with th1 := -1 } true s.T s.P).2
      m := (propsLVS tt { (propsLVS tt { den1 s.m s.T with th1 := -1 } true s.T s.P).1 with th1 := 1 } true s.T s.P).1
      wl := (propsLVS tt { (propsLVS tt { den1 s.m s.T with th1 := -1 } true s.T s.P).1 with th1 := 1 } true s.T s.P).2 } := by
  unfold twoPhase at h ⊢
  simp only at h ⊢
  split_ifs at h ⊢ with hd
  rfl

/-- What `calculate` does for saturated water from 643 K on. -/
theorem calc_sat (wtr : Triple) (fuel fuel' : ℕ) {T : ℝ} (hT : 643 ≤ T) (hT' : T ≤ 647.067 + 1e-7) : waterHGK (lvs fuel) wtr fuel' T 0 =
    (eqnLoop (tpset wtr) fuel fuel (start true T (PsHGK T * 10))).map fun r => .done (finish T r) (PsHGK T * 10) := by
  have e : T - 273.15 + 273.15 = T := by ring
  norm_num at hT'
  have h1 : ¬ (T - 273.15 < 0.01 ∧ T - 273.15 ≥ 0) := by rintro ⟨a, b⟩; norm_num at a; linarith
  have h2 : ((0 : ℝ) / 1e05) < 6.11732e-3 := by norm_num
  have e1 : (if T - 273.15 < 0.01 ∧ T - 273.15 ≥ 0 then (0.01 : ℝ) else T - 273.15) = T - 273.15 := if_neg h1
  have h4 : T - 273.15 + 1.0e-7 ≥ 2.7316e2 - 273.15e0 ∧ T - 273.15 - 1.0e-7 ≤ 647.067e0 - 273.15e0 := by
    norm_num; constructor <;> linarith
  have h5 : T ≥ 6.43e2 := by norm_num; linarith
  have e2 : T - 273.15 + 273.15e0 = T := by norm_num
  unfold waterHGK calculate
  simp only [e1, if_pos h2, abs_zero, true_or, if_true, e2, e]
  rw [if_neg (not_not.2 h4), if_pos h5]
  simp [lvs, Option.map_map, Function.comp_def]

/-- **C142 (counterexample).**  Within 1e-7 K of the critical temperature, asked for saturated water, the near-critical calculation never ends: the two densities agree, the
flag `sW` of the loop of `LVSeqn` is set (WaterHGK-JNgems.cpp:1582-1591) and nothing clears it.  (For a pressure that counts as 0, `calculate` takes the saturated branch.) -/
theorem C142_refuted (wtr : Triple) (fuel' : ℕ) {T : ℝ} (hT : |T - 647.067| < 1e-7) : ∀ fuel : ℕ, waterHGK (lvs fuel) wtr fuel' T 0 = none := by
  intro fuel
  have e : T - 273.15 + 273.15 = T := by ring
  have hT2 := abs_lt.1 hT
  have key : eqnLoop (tpset wtr) fuel fuel (start true T (PsHGK T * 10)) = none := by
    cases hn : fuel with
    | zero => rfl
    | succ n =>
      rw [← hn, show eqnLoop (tpset wtr) fuel fuel = eqnLoop (tpset wtr) fuel (n + 1) by rw [← hn], eqnLoop, round, satLVS_sat]
      have ea : adj T = Tc := by unfold adj; rw [if_pos]; rw [Tc_val]; norm_num at hT ⊢; exact hT
      rw [ea]
      obtain h | ⟨m', h⟩ := Ts_crit fuel (Pfind (start true T (PsHGK T * 10)).m true T 0).1
      · rw [h]; rfl
      · rw [h]
        have hs : (twoPhase (tpset wtr) ((start true T (PsHGK T * 10)).put (Pfind m' true Tc rhoC).1 Tc (pS Tc))).sW = true := by
          rw [twoPhase_sW _ _ rfl]
          simp only [Reg.put_m, pfind_r1, adj_Tc, rOf_Tc, cbe0, cbe1]
          rw [Real.zero_rpow (by norm_num), Real.zero_rpow (by norm_num)]
          simp
        have hi : (start true T (PsHGK T * 10)).isat = true := rfl
        simp only [Option.bind_some, Option.map_some, Reg.put_isat, hi, if_true, hs]
        exact eqn_never _ _ _ hs
  rw [calc_sat wtr fuel fuel' (by norm_num at hT2; linarith) (by norm_num at hT2 ⊢; linarith), key]
  rfl

/-- The critical temperature itself. -/
example : |(647.067 : ℝ) - 647.067| < 1e-7 := by norm_num

/-- The first round at saturation below the critical temperature. -/
theorem eqn_sat (tt : Triple) (fuel n : ℕ) (hf : 16 ≤ fuel) {T P : ℝ} (hT : 643 ≤ T) (hT' : T ≤ Tc - 1e-4) : ∃ (m' : Mem) (T1 T2 : ℝ), |T1 - T| ≤ 1e-5 ∧ |T2 - T| ≤ 1e-5 ∧
    adj T1 = T1 ∧ eqnLoop tt fuel (n + 1) (start true T P) =
      some (twoPhase tt ((start true T P).put (Pfind m' true T1 rhoC).1 T2 (pS T))) ∧
    (twoPhase tt ((start true T P).put (Pfind m' true T1 rhoC).1 T2 (pS T))).sW = false := by
  have ea {t : ℝ} (h : t ≤ Tc - 5e-5) : adj t = t := by
    unfold adj; rw [if_neg]
    rw [abs_sub_comm, abs_of_nonneg (by norm_num at h; linarith)]
    norm_num at h ⊢; linarith
  norm_num at hT'
  have ha : adj T = T := ea (by norm_num; linarith)
  obtain ⟨m', T1, T2, h, h1, h2, -, -⟩ := TsLVS_ends hT (by linarith) fuel hf (Pfind (start true T P).m true T 0).1
  have hT1 := abs_le.1 h1
  norm_num at hT1
  have ha1 : adj T1 = T1 := ea (by norm_num; linarith)
  have hs : (twoPhase tt ((start true T P).put (Pfind m' true T1 rhoC).1 T2 (pS T))).sW = false := by
    rw [twoPhase_sW _ _ rfl]
    simp only [Reg.put_m, pfind_r1, ha1]
    have hr : 0 < rOf T1 := rOf_pos (by linarith) (by linarith)
    have p0 := Real.rpow_pos_of_pos hr (cbe 0)
    have p1 := Real.rpow_pos_of_pos hr (cbe 1)
    have : 0 < 2 * rhoC * (xk 0 * rOf T1 ^ cbe 0 + xk 1 * rOf T1 ^ cbe 1) := by
      rw [xk0, xk1, rhoC]; positivity
    simp [this.ne']
  refine ⟨m', T1, T2, h1, h2, ha1, ?_, hs⟩
  rw [eqnLoop, round, satLVS_sat, ha, h]
  have hi : (start true T P).isat = true := rfl
  simp only [Option.bind_some, Option.map_some, Reg.put_isat, hi, if_true, hs]
  simp

/-- **C142 (partial).**  From 643 K to 0.0001 K below the critical temperature the near-critical calculation for saturated water ends, after one round of `LVSeqn` whose search
for the temperature takes at most 16 steps; it hands out two phases, the liquid the denser, at the pressure `Pfind` has for that temperature.  Missing: the last 0.0001 K, the
end of which is refuted.  `T` in K. -/
theorem C142_partial (wtr : Triple) (fuel fuel' : ℕ) (hf : 16 ≤ fuel) {T : ℝ} (hT : 643 ≤ T) (hT' : T ≤ 647.0669) :
    ∃ (s : Sta) (p : ℝ), waterHGK (lvs fuel) wtr fuel' T 0 = some (.done s p) ∧ s.isat = true ∧ (s.solv 1).density < (s.solv 0).density ∧
      (s.solv 0).pressure = (lvs fuel).pfind T * 1e6 := by
  have hc := Tc_val
  obtain ⟨m', T1, T2, h1, h2, ha1, he, hs⟩ := eqn_sat (tpset wtr) fuel (fuel - 1) hf (P := PsHGK T * 10) hT (by rw [hc]; norm_num at hT' ⊢; linarith)
  rw [show fuel - 1 + 1 = fuel by omega] at he
  rw [calc_sat wtr fuel fuel' hT (by norm_num at hT' ⊢; linarith), he]
  refine ⟨_, _, rfl, ?_⟩
  rw [twoPhase_eq _ _ hs]
  have hT1 := abs_le.1 h1
  norm_num at hT1 hT'
  have hr : 0 < rOf T1 := rOf_pos (by linarith) (by rw [hc]; norm_num; linarith)
  have hg := den1_gap (Pfind m' true T1 rhoC).1 T2
  rw [pfind_r1, ha1] at hg
  have p0 := Real.rpow_pos_of_pos hr (cbe 0)
  have p1 := Real.rpow_pos_of_pos hr (cbe 1)
  have hpos : 0 < 2 * rhoC * (xk 0 * rOf T1 ^ cbe 0 + xk 1 * rOf T1 ^ cbe 1) := by
    rw [xk0, xk1, rhoC]; positivity
  have haT : adj T = T := by
    unfold adj; rw [if_neg]
    rw [abs_sub_comm, abs_of_nonneg (by rw [hc]; norm_num; linarith), hc]
    norm_num; linarith
  unfold finish
  rw [if_pos (by rw [hc]; norm_num; linarith)]
  simp only [Sta.solv, Sta.pick, Reg.put, start, lvs, pfind_p, haT]
  norm_num
  refine ⟨by linarith, ?_⟩
  ring

/-- 645 K. -/
example : (16 : ℕ) ≤ 16 ∧ (643 : ℝ) ≤ 645 ∧ (645 : ℝ) ≤ 647.0669 := by norm_num

/-! ### C143: the two phases on the near-critical saturation curve are in equilibrium -/

/-- The polynomial of the chemical potential, WaterHGK-JNgems.cpp:1268-1269. -/
noncomputable def aPoly (x : ℝ) : ℝ := el coA 12 + x * (el coA 13 + x * (el coA 14 + x * el coA 15))

/-- What `thmLVS` leaves alone at saturation. -/
theorem thm_keeps2 (m : Mem) (T : ℝ) (hr : m.r1 ≠ 0) : (thmLVS m true T).1.r1 = m.r1 ∧ (thmLVS m true T).1.amu = m.amu ∧ (thmLVS m true T).1.dTw = m.dTw ∧
    (thmLVS m true T).1.Pw = m.Pw ∧ (thmLVS m true T).1.Tw = m.Tw ∧ (thmLVS m true T).1.s0 = ssAt 0 m.r1 m.th1 ∧ (thmLVS m true T).1.s1 = ssAt 1 m.r1 m.th1 := by
  simp [thmLVS, Mem.ss, Mem.aux, hr]

theorem props_keeps2 (tt : Triple) (m : Mem) (T P : ℝ) (hr : m.r1 ≠ 0) : (propsLVS tt m true T P).1.r1 = m.r1 ∧ (propsLVS tt m true T P).1.amu = m.amu ∧
    (propsLVS tt m true T P).1.dTw = m.dTw ∧ (propsLVS tt m true T P).1.Pw = m.Pw ∧ (propsLVS tt m true T P).1.Tw = m.Tw ∧
    (propsLVS tt m true T P).1.s0 = ssAt 0 m.r1 m.th1 ∧ (propsLVS tt m true T P).1.s1 = ssAt 1 m.r1 m.th1 := by
  have := thm_keeps2 m T hr
  simpa [propsLVS, dimLVS] using this

theorem rhoC_ne : rhoC ≠ 0 := by norm_num [rhoC]

/-- Entropy of a phase at saturation. -/
theorem thm_S (m : Mem) (T : ℝ) (hr : m.r1 ≠ 0) (ha : m.amu = 0) (hρ : rhoOf m ≠ 0) : (thmLVS m true T).2.Entrop =
    1000 * (Pcon * (m.Pw - m.Tw * (dP0 m.dTw + (m.s0 + m.s1)))) / (rhoOf m * rhoC) + Scon / rhoC * (m.Tw * dM0 m.dTw - aPoly m.dTw) := by
  have h := rhoC_ne
  have e : Scon = 1000 * Pcon := by norm_num [Scon, Pcon]
  simp only [thmLVS, Mem.ss, Mem.aux, rhoOf, ha, e, aPoly] at hρ ⊢
  generalize m.th1 * (xk 0 * m.r1 ^ (cbe 0) + xk 1 * m.r1 ^ (cbe 1)) + cc * (m.s0 + m.s1) + (1 + pw11 * m.dTw) = ρ at *
  simp [hr, ha]
  field_simp
  ring

/-- The Gibbs energy of a phase at saturation does not depend on the phase. -/
theorem thm_G (m : Mem) (T : ℝ) (hr : m.r1 ≠ 0) (ha : m.amu = 0) (hρ : rhoOf m ≠ 0) :
    (thmLVS m true T).2.H - T * (thmLVS m true T).2.Entrop = Scon * T / rhoC * aPoly m.dTw := by
  have h := rhoC_ne
  simp only [thmLVS, Mem.ss, Mem.aux, rhoOf, ha, aPoly] at hρ ⊢
  generalize m.th1 * (xk 0 * m.r1 ^ (cbe 0) + xk 1 * m.r1 ^ (cbe 1)) + cc * (m.s0 + m.s1) + (1 + pw11 * m.dTw) = ρ at *
  simp [hr, ha]
  field_simp
  ring

theorem props_S (tt : Triple) (m : Mem) (T P : ℝ) : (propsLVS tt m true T P).2.S = (thmLVS m true T).2.Entrop * un.fh + tt.Str := by
  simp only [propsLVS, dimLVS, triple, un]; norm_num

theorem props_G (tt : Triple) (m : Mem) (T P : ℝ) : (propsLVS tt m true T P).2.G =
    ((thmLVS m true T).2.H - T * (thmLVS m true T).2.Entrop) * un.fh - (T * tt.Str - 2.7316e2 * tt.Str) + tt.Gtr := by
  simp only [propsLVS, dimLVS, triple, un]; norm_num; ring

/-- The scaled density of a phase (`th` 1 liquid, -1 vapour) with `r` of `T1` and the linear term of `x`. -/
noncomputable def rhoSat (th T1 x : ℝ) : ℝ :=
  th * (xk 0 * rOf T1 ^ (cbe 0) + xk 1 * rOf T1 ^ (cbe 1)) + cc * (ssAt 0 (rOf T1) (-1) + ssAt 1 (rOf T1) (-1)) + (1 + pw11 * x)

theorem beta_bounds {r : ℝ} (h0 : 0 ≤ r) (h : r ≤ 0.0301) : (0 ≤ r ^ (cbe 0) ∧ r ^ (cbe 0) ≤ 0.33) ∧ (0 ≤ r ^ (cbe 1) ∧ r ^ (cbe 1) ≤ 0.06) := by
  have key (n : ℕ) (e u : ℝ) (he : e = n / 40) (hu : 0 ≤ u) (hn : (0.0301 : ℝ) ^ n ≤ u ^ 40) : r ^ e ≤ u := by
    have h1 : (r ^ e) ^ 40 ≤ u ^ 40 := by
      rw [← Real.rpow_natCast, ← Real.rpow_mul h0, he]
      have : ((n : ℝ) / 40 * ((40 : ℕ) : ℝ)) = n := by push_cast; ring
      rw [this, Real.rpow_natCast]
      exact (pow_le_pow_left₀ h0 h n).trans hn
    exact le_of_pow_le_pow_left₀ (by norm_num) hu h1
  refine ⟨⟨Real.rpow_nonneg h0 _, key 13 _ _ (by rw [cbe0]; norm_num) (by norm_num) (by norm_num)⟩,
    ⟨Real.rpow_nonneg h0 _, key 33 _ _ (by rw [cbe1]; norm_num) (by norm_num) (by norm_num)⟩⟩

theorem pw11_val : 0.49 < pw11 ∧ pw11 < 0.492 := by constructor <;> norm_num [pw11, el_num, coQ]

theorem rhoSat_bounds {th T1 x : ℝ} (hth : th = 1 ∨ th = -1) (h0 : 639.9 ≤ T1) (h : T1 ≤ Tc) (hx : -0.0113 ≤ x) (hx0 : x ≤ 0) :
    0.5 < rhoSat th T1 x ∧ rhoSat th T1 x < 1.6 := by
  obtain ⟨r0, r1⟩ := rOf_bounds h0 h
  obtain ⟨⟨b0, b0'⟩, b1, b1'⟩ := beta_bounds r0 r1
  obtain ⟨⟨a0, a0'⟩, a1, a1'⟩ := pow_bounds r0 r1
  have k0 := kS0
  have k1 := kS1
  have hp := pw11_val
  unfold rhoSat
  rw [ss_eq, ss_eq, xk0, xk1, cc_val]
  have g0 : 0 ≤ -kS 0 * rOf T1 ^ (1 - cal 0) ∧ -kS 0 * rOf T1 ^ (1 - cal 0) ≤ 29.73 * 0.0468 := mul_bounds (by linarith) a0 (by linarith) a0'
  have g1 : 0 ≤ -kS 1 * rOf T1 ^ (1 - cal 1) ∧ -kS 1 * rOf T1 ^ (1 - cal 1) ≤ 4.16 * 0.0301 := mul_bounds (by linarith) a1 (by linarith) a1'
  have g2 : 0 ≤ pw11 * -x ∧ pw11 * -x ≤ 0.492 * 0.0113 := mul_bounds (by linarith) (by linarith) hp.2.le (by linarith)
  obtain rfl | rfl := hth
  · norm_num at *
    constructor <;> nlinarith
  · norm_num at *
    constructor <;> nlinarith

theorem rhoSat_x (th T1 x y : ℝ) : rhoSat th T1 x - rhoSat th T1 y = pw11 * (x - y) := by unfold rhoSat; ring

/-- The slope of the code is the derivative of its saturation pressure, up to the digits of the tables. -/
theorem slope_deriv {T : ℝ} (h0 : 639.9 ≤ T) (h : T ≤ Tc) : |derivS T - slopeS T| ≤ 1e-24 := by
  obtain ⟨r0, r1⟩ := rOf_bounds h0 h
  obtain ⟨⟨a0, a0'⟩, a1, a1'⟩ := pow_bounds r0 r1
  have hc := Tc_val
  have k0 := kPS0
  have k1 := kPS1
  have e : derivS T - slopeS T = Pcon * (Tc / T) * ((kP 0 * (2 - cal 0) / (1 - besq) - kS 0) * rOf T ^ (1 - cal 0) + (kP 1 * (2 - cal 1) / (1 - besq) - kS 1) * rOf T ^ (1 - cal 1)) := by
    rw [slopeS_eq, derivS]; unfold slopeG; ring
  have hT : 0 < Tc / T ∧ Tc / T ≤ 1.1 := by
    have : (0 : ℝ) < T := by linarith
    refine ⟨div_pos (by rw [hc]; norm_num) this, ?_⟩
    rw [div_le_iff₀ this, hc]; norm_num at *; linarith
  have hP : 0 < Pcon ∧ Pcon ≤ 0.1 := by constructor <;> norm_num [Pcon]
  have hPT := mul_bounds hP.1.le hT.1.le hP.2 hT.2
  rw [e, abs_mul, abs_of_nonneg hPT.1]
  generalize kP 0 * (2 - cal 0) / (1 - besq) - kS 0 = u at *
  generalize kP 1 * (2 - cal 1) / (1 - besq) - kS 1 = v at *
  generalize rOf T ^ (1 - cal 0) = y at *
  generalize rOf T ^ (1 - cal 1) = z at *
  have hu : |u * y| ≤ 1e-24 * 0.0468 := by rw [abs_mul, abs_of_nonneg a0]; exact (mul_bounds (abs_nonneg _) a0 k0.le a0').2
  have hv : |v * z| ≤ 1e-24 * 0.0301 := by rw [abs_mul, abs_of_nonneg a1]; exact (mul_bounds (abs_nonneg _) a1 k1.le a1').2
  have hs : |u * y + v * z| ≤ 1e-24 * 0.0468 + 1e-24 * 0.0301 := (abs_add_le _ _).trans (add_le_add hu hv)
  have := (mul_bounds hPT.1 (abs_nonneg _) hPT.2 hs).2
  refine this.trans (by norm_num)

theorem inv_near {a b : ℝ} (ha : 0.5 < a) (hb : 0.5 < b) (h : |a - b| ≤ 2e-8) : |1 / b - 1 / a| ≤ 8e-8 := by
  have e : 1 / b - 1 / a = (a - b) / (a * b) := by
    have : a ≠ 0 := by linarith
    have : b ≠ 0 := by linarith
    field_simp
  have hab : 0.25 < a * b := by nlinarith
  rw [e, abs_div, abs_of_pos (by linarith : 0 < a * b), div_le_iff₀ (by linarith)]
  norm_num at *
  linarith

/-- The arithmetic of the relation of Clausius and Clapeyron below. -/
theorem clap {v v' l l' σ p dS dV : ℝ} (hv : 0.5 < v) (hv' : 0.5 < v') (hl : 0.5 < l) (hl' : 0.5 < l') (hvl : v < l)
    (h1 : |v - v'| ≤ 2e-8) (h2 : |l - l'| ≤ 2e-8) (hσ : 0.21 < σ) (hσ' : σ < 0.2905) (hp : |p - σ| ≤ 5e-7)
    (hS : dS = 18.015534144 * (1000 * σ / (v' * rhoC) - 1000 * σ / (l' * rhoC))) (hV : dV = 1801.5268 * (1 / (v * rhoC) - 1 / (l * rhoC))) :
    1.2e-5 * (10 * p * dV) - 1e-5 ≤ dS - 10 * p * dV ∧ dS - 10 * p * dV ≤ 1.75e-5 * (10 * p * dV) + 1e-5 := by
  have g1 := inv_near hv hv' h1
  have g2 := inv_near hl hl' h2
  have hX : 0 ≤ 1 / v - 1 / l := by
    have := one_div_le_one_div_of_le (by linarith) hvl.le
    linarith
  have hX2 : 1 / v - 1 / l ≤ 2 := by
    have a : 1 / v ≤ 2 := by rw [div_le_iff₀ (by linarith)]; norm_num at *; linarith
    have b : 0 ≤ 1 / l := by positivity
    linarith
  have e1 : dS = 18015.534144 / 322.778 * (σ * (1 / v' - 1 / l')) := by
    rw [hS, rhoC]; have : v' ≠ 0 := by linarith
    have : l' ≠ 0 := by linarith
    field_simp; norm_num; ring
  have e2 : dV = 1801.5268 / 322.778 * (1 / v - 1 / l) := by
    rw [hV, rhoC]; have : v ≠ 0 := by linarith
    have : l ≠ 0 := by linarith
    field_simp
  rw [e1, e2]
  have hd : |1 / v' - 1 / l' - (1 / v - 1 / l)| ≤ 1.6e-7 := by
    obtain ⟨a1, a2⟩ := abs_le.1 g1
    obtain ⟨b1, b2⟩ := abs_le.1 g2
    norm_num at *
    rw [abs_le]; constructor <;> linarith
  generalize 1 / v - 1 / l = X at *
  generalize 1 / v' - 1 / l' = Y at *
  obtain ⟨d, rfl⟩ : ∃ d, Y = X + d := ⟨Y - X, by ring⟩
  obtain ⟨ε, rfl⟩ : ∃ ε, p = σ + ε := ⟨p - σ, by ring⟩
  rw [add_sub_cancel_left] at hd hp
  have hA : 0 ≤ σ * X := mul_nonneg (by linarith) hX
  have hB : |σ * d| ≤ 0.2905 * 1.6e-7 := by
    rw [abs_mul, abs_of_pos (by linarith)]; exact (mul_bounds (by linarith) (abs_nonneg _) hσ'.le hd).2
  have hE : |ε * X| ≤ 2.4e-6 * (σ * X) := by
    rw [abs_mul, abs_of_nonneg hX, ← mul_assoc]
    refine mul_le_mul_of_nonneg_right (hp.trans ?_) hX
    norm_num at hσ ⊢; linarith
  obtain ⟨b1, b2⟩ := abs_le.1 hB
  obtain ⟨c1, c2⟩ := abs_le.1 hE
  have f1 : 18015.534144 / 322.778 * (σ * (X + d)) = 18015.534144 / 322.778 * (σ * X) + 18015.534144 / 322.778 * (σ * d) := by ring
  have f2 : 10 * (σ + ε) * (1801.5268 / 322.778 * X) = 10 * (1801.5268 / 322.778) * (σ * X) + 10 * (1801.5268 / 322.778) * (ε * X) := by ring
  rw [f1, f2]
  generalize σ * X = A at *
  generalize σ * d = B at *
  generalize ε * X = E at *
  norm_num at *
  constructor <;> linarith

/-- Powers of `r` near the critical temperature. -/
theorem pow_lip {r s a : ℝ} (hr : 3e-7 ≤ r) (hr' : r ≤ 0.0301) (hs : 3e-7 ≤ s) (hs' : s ≤ 0.0301) (ha : 0.8915 ≤ a) (ha' : a ≤ 3) : |r ^ a - s ^ a| ≤ 6 * |r - s| := by
  have key : ∀ t ∈ Set.Icc (3e-7 : ℝ) 0.0301, HasDerivWithinAt (fun t : ℝ => t ^ a) (a * t ^ (a - 1)) (Set.Icc (3e-7 : ℝ) 0.0301) t := fun t ht =>
    (Real.hasDerivAt_rpow_const (Or.inl (by have := ht.1; norm_num at this; linarith))).hasDerivWithinAt
  have hb : ∀ t ∈ Set.Icc (3e-7 : ℝ) 0.0301, ‖a * t ^ (a - 1)‖ ≤ 6 := fun t ht => by
    have t0 : 0 < t := by have := ht.1; norm_num at this; linarith
    have t1 : t ≤ 1 := by have := ht.2; norm_num at this; linarith
    have hp : 0 < t ^ (a - 1) := Real.rpow_pos_of_pos t0 _
    rw [Real.norm_eq_abs, abs_of_pos (mul_pos (by linarith) hp)]
    by_cases h1 : 1 ≤ a
    · have : t ^ (a - 1) ≤ 1 := Real.rpow_le_one t0.le t1 (by linarith)
      nlinarith
    · have h2 : t ^ (a - 1) ≤ t ^ (-(1 / 9) : ℝ) := Real.rpow_le_rpow_of_exponent_ge t0 t1 (by norm_num at ha ⊢; linarith)
      have h3 : t ^ (-(1 / 9) : ℝ) ≤ 5.5 := by
        rw [Real.rpow_neg t0.le]
        have h4 : (1 / 5.5 : ℝ) ≤ t ^ (1 / 9 : ℝ) := by
          have e : (1 / 5.5 : ℝ) = ((1 / 5.5 : ℝ) ^ (9 : ℕ)) ^ (1 / 9 : ℝ) := by
            rw [← Real.rpow_natCast, ← Real.rpow_mul (by norm_num)]; norm_num
          rw [e]
          refine Real.rpow_le_rpow (by norm_num) ?_ (by norm_num)
          refine le_trans ?_ ht.1
          norm_num
        have := inv_anti₀ (by norm_num) h4
        norm_num at this ⊢; exact this
      nlinarith
  have := (convex_Icc (3e-7 : ℝ) 0.0301).norm_image_sub_le_of_norm_hasDerivWithin_le key hb ⟨hs, hs'⟩ ⟨hr, hr'⟩
  simpa [Real.norm_eq_abs] using this

theorem abs_mul_le {a b A B : ℝ} (ha : |a| ≤ A) (hb : |b| ≤ B) : |a * b| ≤ A * B := by
  rw [abs_mul]; exact mul_le_mul ha hb (abs_nonneg _) ((abs_nonneg _).trans ha)

/-- The arithmetic of `deriv_near`: the inner terms. -/
theorem slope_lip1 {x y C0 C1 u1 u2 v1 v2 : ℝ} (hx : |x - y| ≤ 1.6e-8) (x1 : -0.0113 ≤ x) (x2 : x ≤ 0) (y1 : -0.0113 ≤ y) (y2 : y ≤ 0)
    (c0 : |C0| ≤ 29.74) (c1 : |C1| ≤ 4.17) (l1 : |u1 - v1| ≤ 2.6e-7) (l2 : |u2 - v2| ≤ 2.6e-7) :
    |(1 - x) * ((x - y) * (-50.983 + 15.714 * (x + y)) + C0 * (u1 - v1) + C1 * (u2 - v2))| ≤ 1.0113 * 9.7e-6 := by
  have f2 : |-50.983 + 15.714 * (x + y)| ≤ 52 := by rw [abs_le]; constructor <;> linarith
  have f5 : |1 - x| ≤ 1.0113 := by rw [abs_le]; constructor <;> linarith
  refine abs_mul_le f5 ?_
  have t4 := abs_mul_le hx f2
  have t5 := abs_mul_le c0 l1
  have t6 := abs_mul_le c1 l2
  refine (abs_add_three _ _ _).trans (le_trans (add_le_add_three t4 t5 t6) ?_)
  norm_num

theorem slope_lip2 {x y C0 C1 v1 v2 : ℝ} (hx : |x - y| ≤ 1.6e-8) (y1 : -0.0113 ≤ y) (y2 : y ≤ 0)
    (c0 : |C0| ≤ 29.74) (c1 : |C1| ≤ 4.17) (hv1 : |v1| ≤ 0.0468) (hv2 : |v2| ≤ 0.0301) :
    |(x - y) * -(6.8445 + y * (-50.983 + 15.714 * y) + C0 * v1 + C1 * v2)| ≤ 1.6e-8 * 10 := by
  refine abs_mul_le hx ?_
  have m1 := abs_mul_le c0 hv1
  have m2 := abs_mul_le c1 hv2
  have n0 : |6.8445 + y * (-50.983 + 15.714 * y)| ≤ 8 := by
    have n1 : 0 ≤ y * (-50.983 + 15.714 * y) := by nlinarith
    have n2 : y * (-50.983 + 15.714 * y) ≤ 0.6 := by nlinarith
    rw [abs_le]; constructor <;> linarith
  rw [abs_neg]
  refine (abs_add_three _ _ _).trans (le_trans (add_le_add_three n0 m1 m2) ?_)
  norm_num

/-- The arithmetic of `deriv_near`. -/
theorem slope_lip {x y K0 K1 C0 C1 u1 u2 u3 u4 v1 v2 v3 v4 : ℝ} (hx : |x - y| ≤ 1.6e-8) (x1 : -0.0113 ≤ x) (x2 : x ≤ 0) (y1 : -0.0113 ≤ y) (y2 : y ≤ 0)
    (q0 : |K0| ≤ 5.91) (q1 : |K1| ≤ 0.66) (c0 : |C0| ≤ 29.74) (c1 : |C1| ≤ 4.17) (hv1 : |v1| ≤ 0.0468) (hv2 : |v2| ≤ 0.0301)
    (l1 : |u1 - v1| ≤ 2.6e-7) (l2 : |u2 - v2| ≤ 2.6e-7) (l3 : |u3 - v3| ≤ 2.6e-7) (l4 : |u4 - v4| ≤ 2.6e-7) :
    |Pcon * (1 + x * (6.8445 + x * (-25.4915 + x * 5.238)) + (K0 * u3 + K1 * u4) + (1 - x) * (6.8445 + x * (-50.983 + 15.714 * x) + (C0 * u1 + C1 * u2)))
      - Pcon * (1 + y * (6.8445 + y * (-25.4915 + y * 5.238)) + (K0 * v3 + K1 * v4) + (1 - y) * (6.8445 + y * (-50.983 + 15.714 * y) + (C0 * v1 + C1 * v2)))| ≤ 4.5e-7 := by
  have ex : Pcon * (1 + x * (6.8445 + x * (-25.4915 + x * 5.238)) + (K0 * u3 + K1 * u4) + (1 - x) * (6.8445 + x * (-50.983 + 15.714 * x) + (C0 * u1 + C1 * u2)))
      - Pcon * (1 + y * (6.8445 + y * (-25.4915 + y * 5.238)) + (K0 * v3 + K1 * v4) + (1 - y) * (6.8445 + y * (-50.983 + 15.714 * y) + (C0 * v1 + C1 * v2))) =
      Pcon * ((x - y) * (6.8445 - 25.4915 * (x + y) + 5.238 * (x ^ 2 + x * y + y ^ 2)) + (K0 * (u3 - v3) + K1 * (u4 - v4))
        + ((1 - x) * ((x - y) * (-50.983 + 15.714 * (x + y)) + C0 * (u1 - v1) + C1 * (u2 - v2))
        + (x - y) * -(6.8445 + y * (-50.983 + 15.714 * y) + C0 * v1 + C1 * v2))) := by ring
  rw [ex]
  have f1 : |6.8445 - 25.4915 * (x + y) + 5.238 * (x ^ 2 + x * y + y ^ 2)| ≤ 8 := by
    rw [abs_le]; constructor <;> nlinarith
  have t1 := abs_mul_le hx f1
  have t2 := (abs_add_le _ _).trans (add_le_add (abs_mul_le q0 l3) (abs_mul_le q1 l4))
  have t8 := (abs_add_le _ _).trans (add_le_add (slope_lip1 hx x1 x2 y1 y2 c0 c1 l1 l2) (slope_lip2 hx y1 y2 c0 c1 hv1 hv2))
  have f6 := (abs_add_three _ _ _).trans (add_le_add_three t1 t2 t8)
  have hP : |Pcon| ≤ 0.035 := by rw [abs_of_pos] <;> norm_num [Pcon]
  refine (abs_mul_le hP f6).trans (by norm_num)

/-- The slope changes little over 1e-5 K. -/
theorem deriv_near {T T1 : ℝ} (h0 : 642.9 ≤ T) (h : T ≤ 647.06692) (h0' : 642.9 ≤ T1) (h' : T1 ≤ 647.06692) (hd : |T1 - T| ≤ 1e-5) : |derivS T - derivS T1| ≤ 4.5e-7 := by
  have hc := Tc_val
  have low {t : ℝ} (a : 642.9 ≤ t) (b : t ≤ 647.06692) : 3e-7 ≤ rOf t := by
    have p : 0 < t := by linarith
    have e : rOf t = (Tc - t) / t / 0.3757 := by unfold rOf xOf; rw [besq_val]; field_simp; norm_num; ring
    rw [e, le_div_iff₀ (by norm_num), le_div_iff₀ p, hc]
    norm_num at *; linarith
  have k0 : 639.9 ≤ T := by norm_num at *; linarith
  have k1 : T ≤ Tc := by rw [hc]; norm_num at *; linarith
  have k0' : 639.9 ≤ T1 := by norm_num at *; linarith
  have k1' : T1 ≤ Tc := by rw [hc]; norm_num at *; linarith
  obtain ⟨x1, x2⟩ := xOf_bounds k0 k1
  obtain ⟨y1, y2⟩ := xOf_bounds k0' k1'
  obtain ⟨-, r2⟩ := rOf_bounds k0 k1
  obtain ⟨s0, s2⟩ := rOf_bounds k0' k1'
  have r1 := low h0 h
  have s1 := low h0' h'
  have hx : |xOf T - xOf T1| ≤ 1.6e-8 := by
    have p1 : 0 < T1 := by linarith
    have p2 : 0 < T := by linarith
    have e : xOf T - xOf T1 = Tc * (T - T1) / (T1 * T) := by unfold xOf; field_simp; ring
    have q : 413000 ≤ T1 * T := by nlinarith
    have hc' : |Tc| = 647.067 := by rw [hc]; exact abs_of_pos (by norm_num)
    rw [abs_sub_comm] at hd
    rw [e, abs_div, abs_mul, abs_of_pos (by positivity : 0 < T1 * T), div_le_iff₀ (by positivity), hc']
    norm_num at *
    linarith
  have hr : |rOf T - rOf T1| ≤ 4.3e-8 := by
    have e : rOf T - rOf T1 = -(xOf T - xOf T1) / 0.3757 := by unfold rOf; rw [besq_val, show (1 - 1.3757 : ℝ) = -0.3757 by norm_num, div_neg, div_neg]; ring
    rw [e, abs_div, abs_neg, abs_of_pos (by norm_num : (0 : ℝ) < 0.3757), div_le_iff₀ (by norm_num)]
    refine hx.trans (by norm_num)
  have lip {a : ℝ} (ha : 0.8915 ≤ a) (ha' : a ≤ 3) : |rOf T ^ a - rOf T1 ^ a| ≤ 2.6e-7 := by
    refine (pow_lip r1 r2 s1 s2 ha ha').trans ?_
    norm_num at hr ⊢; linarith
  have l1 := lip (a := 1 - cal 0) (by rw [cal0]; norm_num) (by rw [cal0]; norm_num)
  have l2 := lip (a := 1 - cal 1) (by rw [cal1]; norm_num) (by rw [cal1]; norm_num)
  have l3 := lip (a := 2 - cal 0) (by rw [cal0]; norm_num) (by rw [cal0]; norm_num)
  have l4 := lip (a := 2 - cal 1) (by rw [cal1]; norm_num) (by rw [cal1]; norm_num)
  obtain ⟨⟨a0, a0'⟩, a1, a1'⟩ := pow_bounds s0 s2
  have c0 : |kP 0 * (2 - cal 0) / (1 - besq)| ≤ 29.74 := by
    have := abs_lt.1 kPS0
    have k := kS0
    rw [abs_le]; norm_num at *; constructor <;> linarith
  have c1 : |kP 1 * (2 - cal 1) / (1 - besq)| ≤ 4.17 := by
    have := abs_lt.1 kPS1
    have k := kS1
    rw [abs_le]; norm_num at *; constructor <;> linarith
  have q0 : |kP 0| ≤ 5.91 := by have := kP0; rw [abs_le]; constructor <;> linarith
  have q1 : |kP 1| ≤ 0.66 := by have := kP1; rw [abs_le]; constructor <;> linarith
  unfold derivS slopeG
  have e1 : Tc / T = 1 - xOf T := by unfold xOf; ring
  have e2 : Tc / T1 = 1 - xOf T1 := by unfold xOf; ring
  rw [e1, e2, Pw0_eq, Pw0_eq, dP0_eq, dP0_eq]
  generalize kP 0 * (2 - cal 0) / (1 - besq) = C0 at *
  generalize kP 1 * (2 - cal 1) / (1 - besq) = C1 at *
  generalize rOf T ^ (1 - cal 0) = u1 at *
  generalize rOf T ^ (1 - cal 1) = u2 at *
  generalize rOf T ^ (2 - cal 0) = u3 at *
  generalize rOf T ^ (2 - cal 1) = u4 at *
  generalize rOf T1 ^ (1 - cal 0) = v1 at *
  generalize rOf T1 ^ (1 - cal 1) = v2 at *
  generalize rOf T1 ^ (2 - cal 0) = v3 at *
  generalize rOf T1 ^ (2 - cal 1) = v4 at *
  generalize xOf T = x at *
  generalize xOf T1 = y at *
  have hv1 : |v1| ≤ 0.0468 := by rw [abs_of_nonneg a0]; exact a0'
  have hv2 : |v2| ≤ 0.0301 := by rw [abs_of_nonneg a1]; exact a1'
  exact slope_lip hx x1 x2 y1 y2 q0 q1 c0 c1 hv1 hv2 l1 l2 l3 l4

/-- The densities of `den1`. -/
theorem den1_rho (m' : Mem) {T1 : ℝ} (ha : adj T1 = T1) (T2 : ℝ) :
    (den1 (Pfind m' true T1 rhoC).1 T2).Dliq = rhoC * rhoSat 1 T1 (xOf T2) ∧ (den1 (Pfind m' true T1 rhoC).1 T2).Dvap = rhoC * rhoSat (-1) T1 (xOf T2) := by
  simp only [den1, Mem.ss, rhoSat, pfind_r1, pfind_th1, ha, xOf]
  constructor <;> ring

/-- The two phases of the first round at saturation: Gibbs energies and entropies. -/
theorem two_phases (tt : Triple) (m' : Mem) {T1 T2 P : ℝ} (ha : adj T1 = T1) (h0 : 639.9 ≤ T1) (h : T1 < Tc) :
    let mv : Mem := { den1 (Pfind m' true T1 rhoC).1 T2 with th1 := -1 }
    let ml : Mem := { (propsLVS tt mv true T2 P).1 with th1 := 1 }
    (propsLVS tt mv true T2 P).2.G = (propsLVS tt ml true T2 P).2.G ∧
      (propsLVS tt mv true T2 P).2.S - (propsLVS tt ml true T2 P).2.S =
        4.305816 * (1000 * slopeS T1 / (rhoSat (-1) T1 (xOf T1) * rhoC) - 1000 * slopeS T1 / (rhoSat 1 T1 (xOf T1) * rhoC)) := by
  intro mv ml
  have hr : rOf T1 ≠ 0 := (rOf_pos (by linarith) h).ne'
  have v1 : mv.r1 = rOf T1 := by simp [mv, den1, Mem.ss, pfind_r1, ha]
  have v2 : mv.amu = 0 := by simp [mv, den1, Mem.ss, pfind_amu]
  have v3 : mv.dTw = xOf T1 := by simp [mv, den1, Mem.ss, pfind_dTw, ha]
  have v4 : mv.Pw = Pw0 (xOf T1) + 0 + dPwOf (rOf T1) (-1) := by simp [mv, den1, Mem.ss, pfind_Pw, ha]
  have v5 : mv.Tw = -Tc / T1 := by simp [mv, den1, Mem.ss, pfind_Tw, ha]
  have v6 : mv.s0 = ssAt 0 (rOf T1) (-1) := by simp [mv, den1, Mem.ss, pfind_r1, pfind_th1, ha]
  have v7 : mv.s1 = ssAt 1 (rOf T1) (-1) := by simp [mv, den1, Mem.ss, pfind_r1, pfind_th1, ha]
  have v8 : mv.th1 = -1 := rfl
  obtain ⟨k1, k2, k3, k4, k5, k6, k7⟩ := props_keeps2 tt mv T2 P (by rw [v1]; exact hr)
  have l1 : ml.r1 = rOf T1 := k1.trans v1
  have l2 : ml.amu = 0 := k2.trans v2
  have l3 : ml.dTw = xOf T1 := k3.trans v3
  have l4 : ml.Pw = Pw0 (xOf T1) + 0 + dPwOf (rOf T1) (-1) := k4.trans v4
  have l5 : ml.Tw = -Tc / T1 := k5.trans v5
  have l6 : ml.s0 = ssAt 0 (rOf T1) (-1) := by rw [show ml.s0 = _ from k6, v1, v8]
  have l7 : ml.s1 = ssAt 1 (rOf T1) (-1) := by rw [show ml.s1 = _ from k7, v1, v8]
  have l8 : ml.th1 = 1 := rfl
  have rv : rhoOf mv = rhoSat (-1) T1 (xOf T1) := by unfold rhoOf rhoSat; rw [v1, v3, v6, v7, v8]
  have rl : rhoOf ml = rhoSat 1 T1 (xOf T1) := by unfold rhoOf rhoSat; rw [l1, l3, l6, l7, l8]
  obtain ⟨x1, x2⟩ := xOf_bounds h0 h.le
  have bv := rhoSat_bounds (th := -1) (Or.inr rfl) h0 h.le x1 x2
  have bl := rhoSat_bounds (th := 1) (Or.inl rfl) h0 h.le x1 x2
  have nv : rhoOf mv ≠ 0 := by rw [rv]; linarith
  have nl : rhoOf ml ≠ 0 := by rw [rl]; linarith
  have hrv : mv.r1 ≠ 0 := by rw [v1]; exact hr
  have hrl : ml.r1 ≠ 0 := by rw [l1]; exact hr
  constructor
  · rw [props_G, props_G, thm_G mv T2 hrv v2 nv, thm_G ml T2 hrl l2 nl, v3, l3]
  · rw [props_S, props_S, thm_S mv T2 hrv v2 nv, thm_S ml T2 hrl l2 nl, v3, l3, v4, l4, v5, l5, v6, l6, v7, l7, rv, rl]
    have e : Pcon * (Pw0 (xOf T1) + 0 + dPwOf (rOf T1) (-1) - -Tc / T1 * (dP0 (xOf T1) + (ssAt 0 (rOf T1) (-1) + ssAt 1 (rOf T1) (-1)))) = slopeS T1 := rfl
    rw [e]
    simp only [un]
    ring

theorem xOf_near {T1 T2 : ℝ} (k0 : 639.9 ≤ T1) (k2 : 639.9 ≤ T2) (h : |T2 - T1| ≤ 2e-5) : |xOf T2 - xOf T1| ≤ 4e-8 := by
  have p1 : 0 < T1 := by linarith
  have p2 : 0 < T2 := by linarith
  have e : xOf T2 - xOf T1 = Tc * (T2 - T1) / (T1 * T2) := by unfold xOf; field_simp; ring
  have q : 400000 ≤ T1 * T2 := by nlinarith
  have hc : |Tc| = 647.067 := by rw [Tc_val]; exact abs_of_pos (by norm_num)
  rw [e, abs_div, abs_mul, abs_of_pos (by positivity : 0 < T1 * T2), div_le_iff₀ (by positivity), hc]
  norm_num at *
  linarith

/-- The relation of Clausius and Clapeyron for the densities and the slope of the code. -/
theorem clap_rho {T1 T2 p : ℝ} (k0 : 639.9 ≤ T1) (k1 : T1 < Tc) (k2 : 639.9 ≤ T2) (k3 : T2 ≤ Tc) (h : |T2 - T1| ≤ 2e-5) (hp' : |p - slopeS T1| ≤ 5e-7) :
    0.5 < rhoSat (-1) T1 (xOf T2) ∧ rhoSat (-1) T1 (xOf T2) < rhoSat 1 T1 (xOf T2) ∧
    1.2e-5 * (10 * p * (1801.5268 * (1 / (rhoSat (-1) T1 (xOf T2) * rhoC) - 1 / (rhoSat 1 T1 (xOf T2) * rhoC)))) - 1e-5 ≤
      18.015534144 * (1000 * slopeS T1 / (rhoSat (-1) T1 (xOf T1) * rhoC) - 1000 * slopeS T1 / (rhoSat 1 T1 (xOf T1) * rhoC))
        - 10 * p * (1801.5268 * (1 / (rhoSat (-1) T1 (xOf T2) * rhoC) - 1 / (rhoSat 1 T1 (xOf T2) * rhoC))) ∧
    18.015534144 * (1000 * slopeS T1 / (rhoSat (-1) T1 (xOf T1) * rhoC) - 1000 * slopeS T1 / (rhoSat 1 T1 (xOf T1) * rhoC))
        - 10 * p * (1801.5268 * (1 / (rhoSat (-1) T1 (xOf T2) * rhoC) - 1 / (rhoSat 1 T1 (xOf T2) * rhoC))) ≤
      1.75e-5 * (10 * p * (1801.5268 * (1 / (rhoSat (-1) T1 (xOf T2) * rhoC) - 1 / (rhoSat 1 T1 (xOf T2) * rhoC)))) + 1e-5 := by
  obtain ⟨x1, x2⟩ := xOf_bounds k0 k1.le
  obtain ⟨y1, y2⟩ := xOf_bounds k2 k3
  have bv' := rhoSat_bounds (th := -1) (Or.inr rfl) k0 k1.le x1 x2
  have bl' := rhoSat_bounds (th := 1) (Or.inl rfl) k0 k1.le x1 x2
  have bv := rhoSat_bounds (th := -1) (Or.inr rfl) k0 k1.le y1 y2
  have bl := rhoSat_bounds (th := 1) (Or.inl rfl) k0 k1.le y1 y2
  have hx := xOf_near k0 k2 h
  have hp := pw11_val
  have hδ : ∀ th, |rhoSat th T1 (xOf T2) - rhoSat th T1 (xOf T1)| ≤ 2e-8 := fun th => by
    rw [rhoSat_x, abs_mul, abs_of_pos (by linarith)]
    have := (mul_bounds (by linarith) (abs_nonneg _) hp.2.le hx).2
    refine this.trans (by norm_num)
  have hr : 0 < rOf T1 := rOf_pos (by linarith) k1
  have hvl : rhoSat (-1) T1 (xOf T2) < rhoSat 1 T1 (xOf T2) := by
    have p0 := Real.rpow_pos_of_pos hr (cbe 0)
    have p1 := Real.rpow_pos_of_pos hr (cbe 1)
    have : 0 < xk 0 * rOf T1 ^ cbe 0 + xk 1 * rOf T1 ^ cbe 1 := by rw [xk0, xk1]; positivity
    unfold rhoSat; linarith
  have ss := slopeS_bounds k0 k1.le
  exact ⟨bv.1, hvl, clap bv.1 bv'.1 bl.1 bl'.1 hvl (hδ _) (hδ _) ss.1 ss.2 hp' rfl rfl⟩

/-- The state handed out for saturated water. -/
theorem sat_state (wtr : Triple) (fuel fuel' : ℕ) (hf : 16 ≤ fuel) {T : ℝ} (hT : 643 ≤ T) (hT' : T ≤ 647.0669) :
    ∃ (wv wl : WProps) (T1 T2 p : ℝ), |T1 - T| ≤ 1e-5 ∧ |T2 - T| ≤ 1e-5 ∧
      waterHGK (lvs fuel) wtr fuel' T 0 = some (.done ⟨true, pS T * 10, rhoC * rhoSat 1 T1 (xOf T2) / 1.0e3, rhoC * rhoSat (-1) T1 (xOf T2) / 1.0e3, wv, wl⟩ p) ∧ wv.G = wl.G ∧
      wv.S - wl.S = 4.305816 * (1000 * slopeS T1 / (rhoSat (-1) T1 (xOf T1) * rhoC) - 1000 * slopeS T1 / (rhoSat 1 T1 (xOf T1) * rhoC)) := by
  have hc := Tc_val
  obtain ⟨m', T1, T2, h1, h2, ha1, he, hs⟩ := eqn_sat (tpset wtr) fuel (fuel - 1) hf (P := PsHGK T * 10) hT (by rw [hc]; norm_num at hT' ⊢; linarith)
  rw [show fuel - 1 + 1 = fuel by omega] at he
  rw [calc_sat wtr fuel fuel' hT (by norm_num at hT' ⊢; linarith), he]
  have hT1 := abs_le.1 h1
  have k0 : 639.9 ≤ T1 := by norm_num at hT1 ⊢; linarith
  have k1 : T1 < Tc := by rw [hc]; norm_num at hT1 hT' ⊢; linarith
  have k4 : T ≤ Tc := by rw [hc]; norm_num at hT' ⊢; linarith
  obtain ⟨g, es⟩ := two_phases (tpset wtr) m' (T2 := T2) (P := pS T) ha1 k0 k1
  obtain ⟨dl, dv⟩ := den1_rho m' ha1 T2
  rw [twoPhase_eq _ _ hs]
  refine ⟨_, _, T1, T2, PsHGK T * 10, h1, h2, ?_, g, es⟩
  rw [Option.map_some]
  unfold finish
  rw [if_pos k4, ← dl, ← dv]
  rfl

/-- The two phases: Gibbs energies, slope of the saturation curve, entropies and volumes. -/
theorem sat_clap (wtr : Triple) (fuel fuel' : ℕ) (hf : 16 ≤ fuel) {T : ℝ} (hT : 643 ≤ T) (hT' : T ≤ 647.0669) :
    ∃ (s : Sta) (p slope T1 T2 : ℝ), waterHGK (lvs fuel) wtr fuel' T 0 = some (.done s p) ∧ (s.thermo 0).G = (s.thermo 1).G ∧
      HasDerivAt (lvs fuel).pfind slope T ∧ 0.21 < slope ∧ slope < 0.2905 ∧ |T1 - T| ≤ 1e-5 ∧ |T2 - T| ≤ 1e-5 ∧
      (s.thermo 1).V - (s.thermo 0).V = 1801.5268 * (1 / (rhoSat (-1) T1 (xOf T2) * rhoC) - 1 / (rhoSat 1 T1 (xOf T2) * rhoC)) ∧ (s.thermo 0).V < (s.thermo 1).V ∧
      1.2e-5 * (10 * slope * ((s.thermo 1).V - (s.thermo 0).V)) - 1e-5 ≤ (s.thermo 1).S - (s.thermo 0).S - 10 * slope * ((s.thermo 1).V - (s.thermo 0).V) ∧
      (s.thermo 1).S - (s.thermo 0).S - 10 * slope * ((s.thermo 1).V - (s.thermo 0).V) ≤ 1.75e-5 * (10 * slope * ((s.thermo 1).V - (s.thermo 0).V)) + 1e-5 := by
  have hc := Tc_val
  obtain ⟨wv, wl, T1, T2, p, h1, h2, hw, g, es⟩ := sat_state wtr fuel fuel' hf hT hT'
  have hT1 := abs_le.1 h1
  have hT2 := abs_le.1 h2
  norm_num at hT1 hT' hT2
  have k0 : 639.9 ≤ T1 := by norm_num; linarith
  have k1 : T1 < Tc := by rw [hc]; norm_num; linarith
  have k2 : 639.9 ≤ T2 := by norm_num; linarith
  have k3 : T2 ≤ Tc := by rw [hc]; norm_num; linarith
  have k4 : T < Tc := by rw [hc]; norm_num; linarith
  have hp : |derivS T - slopeS T1| ≤ 5e-7 := by
    have a := deriv_near (T := T) (T1 := T1) (by norm_num; linarith) (by norm_num; linarith) (by norm_num; linarith) (by norm_num; linarith) h1
    have b := slope_deriv k0 k1.le
    have c := abs_add_le (derivS T - derivS T1) (derivS T1 - slopeS T1)
    rw [sub_add_sub_cancel] at c
    norm_num at *; linarith
  obtain ⟨b1, b2, cl1, cl2⟩ := clap_rho k0 k1 k2 k3 (by rw [abs_le]; norm_num; constructor <;> linarith) hp
  have sb := derivS_bounds (T := T) (by norm_num; linarith) k4.le
  have hder : HasDerivAt (lvs fuel).pfind (derivS T) T := by
    refine (pS_deriv (by linarith) k4).congr_of_eventuallyEq ?_
    have : T < Tc - 1e-7 := by rw [hc]; norm_num; linarith
    filter_upwards [Iio_mem_nhds this] with t ht
    rw [Set.mem_Iio] at ht
    simp only [lvs, pfind_p]
    unfold adj; rw [if_neg]
    rw [abs_sub_comm, abs_of_nonneg (by linarith)]
    norm_num at ht ⊢; linarith
  refine ⟨_, _, derivS T, T1, T2, hw, ?_⟩
  simp only [Sta.thermo, Sta.pick]
  simp only [and_true, true_and, if_true, or_false, and_false, false_or, zero_ne_one, if_false, one_ne_zero, Bool.true_eq_false]
  have ev (x : ℝ) : 1 / (rhoC * x / 1.0e3) * 18.015268 * 0.1 = 1801.5268 * (1 / (x * rhoC)) := by
    rw [rhoC]
    by_cases h : x = 0
    · simp [h]
    · field_simp; norm_num
  rw [ev, ev]
  have hC : 0 < rhoC := by norm_num [rhoC]
  have e18 (z : ℝ) : 4.305816 * z * calToJ = 18.015534144 * z := by rw [calToJ]; norm_num; ring
  rw [← mul_sub, ← sub_mul, es, e18]
  refine ⟨by rw [g], hder, sb.1, sb.2, h1, h2, rfl, ?_, cl1, cl2⟩
  refine mul_lt_mul_of_pos_left ?_ (by norm_num)
  exact one_div_lt_one_div_of_lt (mul_pos (by linarith) hC) (mul_lt_mul_of_pos_right b2 hC)

/-- **C143 (partial).**  The two phases handed out for saturated water between 643 K and 647.0669 K have the same Gibbs energy, exactly, and their entropies and volumes
satisfy the relation of Clausius and Clapeyron, `ΔS = (dPsat/dT) ΔV`, with the slope of the program's own saturation curve, to 18 parts in a million and 1e-5 J/(mol K).
(Pressures in MPa, `V` in J/bar: the factor 10.)  Missing: the exact relation (refuted), and the last 0.0001 K. -/
theorem C143_partial (wtr : Triple) (fuel fuel' : ℕ) (hf : 16 ≤ fuel) {T : ℝ} (hT : 643 ≤ T) (hT' : T ≤ 647.0669) :
    ∃ (s : Sta) (p slope : ℝ), waterHGK (lvs fuel) wtr fuel' T 0 = some (.done s p) ∧ (s.thermo 0).G = (s.thermo 1).G ∧
      HasDerivAt (lvs fuel).pfind slope T ∧ 0.21 < slope ∧ slope < 0.2905 ∧ (s.thermo 0).V < (s.thermo 1).V ∧
      |(s.thermo 1).S - (s.thermo 0).S - 10 * slope * ((s.thermo 1).V - (s.thermo 0).V)| ≤ 1.75e-5 * (10 * slope * ((s.thermo 1).V - (s.thermo 0).V)) + 1e-5 := by
  obtain ⟨s, p, slope, T1, T2, h, g, hd, b1, b2, -, -, -, hV, c1, c2⟩ := sat_clap wtr fuel fuel' hf hT hT'
  refine ⟨s, p, slope, h, g, hd, b1, b2, hV, abs_le.2 ⟨?_, c2⟩⟩
  have : 0 < 10 * slope * ((s.thermo 1).V - (s.thermo 0).V) := mul_pos (by linarith) (by linarith)
  norm_num at *
  linarith

/-- 645 K. -/
example : (16 : ℕ) ≤ 20 ∧ (643 : ℝ) ≤ 645 ∧ (645 : ℝ) ≤ 647.0669 := by norm_num

/-- **C143 (counterexample).**  From 643 K to 645 K the relation of Clausius and Clapeyron does not hold for the values handed out: the entropies are for 18.015534144 g of
water (4.305816 · 4.184), the volumes for 18.015268 g. -/
theorem C143_refuted (wtr : Triple) (fuel fuel' : ℕ) (hf : 16 ≤ fuel) {T : ℝ} (hT : 643 ≤ T) (hT' : T ≤ 645) :
    ∃ (s : Sta) (p slope : ℝ), waterHGK (lvs fuel) wtr fuel' T 0 = some (.done s p) ∧ HasDerivAt (lvs fuel).pfind slope T ∧
      10 * slope * ((s.thermo 1).V - (s.thermo 0).V) < (s.thermo 1).S - (s.thermo 0).S := by
  have hc := Tc_val
  obtain ⟨s, p, slope, T1, T2, h, -, hd, b1, b2, h1, h2, eV, hV, c1, -⟩ := sat_clap wtr fuel fuel' hf hT (by linarith)
  refine ⟨s, p, slope, h, hd, ?_⟩
  have hT1 := abs_le.1 h1
  have hT2 := abs_le.1 h2
  norm_num at hT1 hT2
  have k0 : 639.9 ≤ T1 := by norm_num; linarith
  have k1 : T1 ≤ Tc := by rw [hc]; norm_num; linarith
  have k2 : 639.9 ≤ T2 := by norm_num; linarith
  have k3 : T2 ≤ Tc := by rw [hc]; norm_num; linarith
  obtain ⟨y1, y2⟩ := xOf_bounds k2 k3
  have bv := rhoSat_bounds (th := -1) (Or.inr rfl) k0 k1 y1 y2
  have bl := rhoSat_bounds (th := 1) (Or.inl rfl) k0 k1 y1 y2
  have hr : 0.008 ≤ rOf T1 := by
    have p : 0 < T1 := by linarith
    have e : rOf T1 = (Tc - T1) / T1 / 0.3757 := by unfold rOf xOf; rw [besq_val]; field_simp; norm_num; ring
    rw [e, le_div_iff₀ (by norm_num), le_div_iff₀ p, hc]
    norm_num at *; linarith
  have hgap : 0.576 ≤ rhoSat 1 T1 (xOf T2) - rhoSat (-1) T1 (xOf T2) := by
    have e : rhoSat 1 T1 (xOf T2) - rhoSat (-1) T1 (xOf T2) = 2 * (xk 0 * rOf T1 ^ (cbe 0) + xk 1 * rOf T1 ^ (cbe 1)) := by unfold rhoSat; ring
    have p1 : 0 ≤ rOf T1 ^ (cbe 1) := Real.rpow_nonneg (by linarith) _
    have p0 : 0.2 ≤ rOf T1 ^ (cbe 0) := by
      have a1 : (0.008 : ℝ) ^ (cbe 0) ≤ rOf T1 ^ (cbe 0) := Real.rpow_le_rpow (by norm_num) hr (by rw [cbe0]; norm_num)
      have a2 : (0.008 : ℝ) ^ (1 / 3 : ℝ) ≤ 0.008 ^ (cbe 0) := Real.rpow_le_rpow_of_exponent_ge (by norm_num) (by norm_num) (by rw [cbe0]; norm_num)
      have a3 : (0.008 : ℝ) ^ (1 / 3 : ℝ) = 0.2 := by
        rw [show (0.008 : ℝ) = 0.2 ^ (3 : ℕ) by norm_num, ← Real.rpow_natCast, ← Real.rpow_mul (by norm_num)]; norm_num
      linarith
    rw [e, xk0, xk1]
    norm_num at *; linarith
  have hdV : 1 ≤ (s.thermo 1).V - (s.thermo 0).V := by
    rw [eV]
    generalize rhoSat (-1) T1 (xOf T2) = v at *
    generalize rhoSat 1 T1 (xOf T2) = l at *
    have hv : 0 < v := by linarith
    have hl : 0 < l := by linarith
    have e : 1801.5268 * (1 / (v * rhoC) - 1 / (l * rhoC)) = 1801.5268 / 322.778 * ((l - v) / (v * l)) := by
      rw [rhoC]; field_simp
    have q : v * l ≤ 2.56 := by nlinarith
    have q2 : 0.225 ≤ (l - v) / (v * l) := by
      rw [le_div_iff₀ (mul_pos hv hl)]; norm_num at *; linarith
    rw [e]
    norm_num at *; linarith
  have : 10 * 0.21 * 1 < 10 * slope * ((s.thermo 1).V - (s.thermo 0).V) := by
    have := mul_lt_mul'' b1 (lt_of_lt_of_le (by norm_num : (0.999 : ℝ) < 1) hdV) (by norm_num) (by norm_num)
    nlinarith
  norm_num at *
  linarith

/-- 644 K. -/
example : (16 : ℕ) ≤ 20 ∧ (643 : ℝ) ≤ 644 ∧ (644 : ℝ) ≤ 645 := by norm_num

end Crit

end Gems

end ThermoFun

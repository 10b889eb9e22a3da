import Verif.Lemmas.SolveNear
import Verif.Props.GemsBorn
import Verif.Lemmas.GemsFlowAt

/-!
# WaterHGK-JNgems.cpp: densities and states found from temperature and pressure

* C127: the density found by `denHGK` gives the pressure it was asked for.
* C128: liquid and vapour found by `pcorr` are in equilibrium.
* C129: the state handed out by `calculateWaterHGKgems` is that of one density, at the given pressure.
* C132: the states of saturated water handed out are those of the two phases, at the pressure handed back.
* C130: the derivatives of the permittivity handed out by `electroPropertiesWaterJNgems` are per kelvin and per pascal.
* C131: enthalpy and volume handed out by `thermoPropertiesWaterHGKgems` are those of the same amount of water.
-/

namespace ThermoFun

namespace Gems

open WP (el)

/-- The pressure (MPa) of the equation of state. -/
noncomputable def pEos (t d : ℝ) : ℝ := presOf (evalAt t d) t d

/-- The specific Gibbs energy (J/g) of the equation of state. -/
noncomputable def gEos (t d : ℝ) : ℝ := gascon * t * (thmHGK (evalAt t d) t d).gd

/-! ### C127 -/

lemma clamp_range (d : ℝ) : 0 < clampD d ∧ clampD d ≤ 1.9 := by
  unfold clampD
  dsimp only
  split_ifs with h1 h2 h3
  · norm_num at h2
  · norm_num
  · norm_num
  · exact ⟨not_le.1 h1, not_lt.1 h3⟩

lemma denLoop_conv {p g t : ℝ} : ∀ (fuel i : ℕ) (d : ℝ), (denLoop p g t fuel i d).conv = true →
    0 < (denLoop p g t fuel i d).d ∧ (denLoop p g t fuel i d).d ≤ 1.9 ∧ (denLoop p g t fuel i d).e = (denLoop p g t fuel i d).d ∧
    denConv p g (pEos t (denLoop p g t fuel i d).d) ∧ 0 < dpddOf t (denLoop p g t fuel i d).d := by
  intro fuel
  induction fuel with
  | zero => intro i d h; simp [denLoop] at h
  | succ fuel ih =>
    intro i d
    unfold denLoop
    dsimp only
    split_ifs with h1 h2 h3 h4 h5 <;> intro h
    · exact ⟨(clamp_range d).1, (clamp_range d).2, rfl, h2, h1⟩
    all_goals first | exact ih _ _ h | exact absurd h (by decide)

/-- The loop of `denHGK` ends by itself: with more than 32 rounds allowed nothing changes. -/
theorem C127_ends (p g t : ℝ) (n : ℕ) : denLoop p g t (32 + n) 0 g = denHGK p g t := by
  have key : ∀ (fuel i : ℕ) (d : ℝ), 31 ≤ fuel + i → 0 < fuel → denLoop p g t (fuel + n) i d = denLoop p g t fuel i d := by
    intro fuel
    induction fuel with
    | zero => intro i d _ h; exact absurd h (lt_irrefl _)
    | succ fuel ih =>
      intro i d h _
      rw [show fuel + 1 + n = (fuel + n) + 1 by ring]
      rw [denLoop, denLoop]
      dsimp only
      rcases Nat.eq_zero_or_pos fuel with h0 | h0
      · have h30 : ¬ (i + 1 ≤ 30) := by omega
        have h10 : ¬ (i + 1 ≤ 10) := by omega
        simp only [h30, h10, if_false]
      · rw [ih _ _ (by omega) h0, ih _ _ (by omega) h0]
  exact key 32 0 g (by norm_num) (by norm_num)

/-- A density search that reports success has found a density in (0, 1.9] g/cm³ that gives the pressure to 1e-6, 1e-7 for a guess up to 0.7 and 1e-8 for a guess
up to 0.3, and at which the fluid is mechanically stable.  Missing: nothing tells the caller that the search has failed, see `C127_refuted`. -/
theorem C127_partial {p g t : ℝ} (h : (denHGK p g t).conv = true) :
    0 < (denHGK p g t).d ∧ (denHGK p g t).d ≤ 1.9 ∧
    |1 - pEos t (denHGK p g t).d / p| < 1e-6 ∧ (g ≤ 0.7 → |1 - pEos t (denHGK p g t).d / p| < 1e-7) ∧ (g ≤ 0.3 → |1 - pEos t (denHGK p g t).d / p| < 1e-8) ∧
    (Ok t (denHGK p g t).d → ∃ k > 0, HasDerivAt (pEos t) k (denHGK p g t).d) := by
  obtain ⟨h1, h2, -, h4, h5⟩ := denLoop_conv 32 0 g h
  change 0 < (denHGK p g t).d at h1
  change (denHGK p g t).d ≤ 1.9 at h2
  change denConv p g (pEos t (denHGK p g t).d) at h4
  change 0 < dpddOf t (denHGK p g t).d at h5
  unfold denConv at h4
  refine ⟨h1, h2, ?_, ?_, ?_, fun hok => ⟨_, h5, ?_⟩⟩
  · rcases h4 with h | ⟨_, h⟩ | ⟨_, h⟩ <;> norm_num at h ⊢ <;> linarith
  · intro hg
    rcases h4 with h | ⟨_, h⟩ | ⟨h', _⟩
    · norm_num at h ⊢; linarith
    · norm_num at h ⊢; linarith
    · linarith
  · intro hg
    rcases h4 with h | ⟨h', _⟩ | ⟨h', _⟩
    · norm_num at h ⊢; linarith
    · linarith
    · linarith
  · rw [dpddOf_eq, dpdd_eq hok]
    exact (pres_grad hok).dy

lemma t298 : Enc (298.15 : ℝ) (.rat 298.15) := Enc.lit _ (by norm_num)
lemma p10 : Enc (10 : ℝ) (.rat 10) := Enc.lit _ (by norm_num)

lemma den0_kernel : (Iv.lt (.rat 0.0539) K298.cd && (K298.cd.lt (.rat 0.054) &&
    ((presI K298.t K298.cd).lt (.rat (-90)) && ((dpddI K298.t K298.ce).lt (.rat 0))))) = true := by decide +kernel

lemma den0_enc : Enc (denHGK 10 0 298.15).d K298.cd ∧ Enc (denHGK 10 0 298.15).e K298.ce ∧ (denHGK 10 0 298.15).conv = false := den_enc p10 z0 t298 K298.c_eq

/-- The search for vapour at 298.15 K and 10 MPa. -/
lemma den0_298 : (denHGK 10 0 298.15).conv = false ∧ 0.0539 < (denHGK 10 0 298.15).d ∧ (denHGK 10 0 298.15).d < 0.054 ∧
    pEos 298.15 (denHGK 10 0 298.15).d < -90 ∧ dpddOf 298.15 (denHGK 10 0 298.15).e < 0 := by
  obtain ⟨a1, a2, a3⟩ := den0_enc
  have h := den0_kernel
  simp only [Bool.and_eq_true] at h
  obtain ⟨h2, h3, h4, h5⟩ := h
  refine ⟨a3, ?_, ?_, ?_, ?_⟩
  · exact (Enc.lit (x := 0.0539) 0.0539 (by norm_num)).lt' a1 h2
  · exact a1.lt' (Enc.lit (x := 0.054) 0.054 (by norm_num)) h3
  · exact (pres_enc t298 a1).lt' (Enc.lit (x := -90) (-90) (by norm_num)) h4
  · exact (dpdd_enc t298 a2).lt' z0 h5

/-- At 298.15 K and 10 MPa the search started with the guess 0 (as `calcv2` does for vapour) ends in the unstable region, at a density of the equation of state for
which the pressure is below −90 MPa. -/
theorem C127_refuted : ∃ p g t : ℝ, 0 < p ∧ 273.16 < t ∧ pEos t (denHGK p g t).d < -9 * p ∧ dpddOf t (denHGK p g t).e < 0 := by
  obtain ⟨-, -, -, h4, h5⟩ := den0_298
  exact ⟨10, 0, 298.15, by norm_num, by norm_num, by norm_num at h4 ⊢; linarith, h5⟩

lemma sat_kernel : (Iv.lt (.rat 0.003169) K298.p && (K298.p.lt (.rat 0.0031691) &&
    (Iv.lt (.rat 0.99701) K298.l && (K298.l.lt (.rat 0.99702) && (Iv.lt (.rat 0.000023) K298.v && (K298.v.lt (.rat 0.0000231) &&
    (Iv.lt (.rat 0.0031687) (presI K298.t K298.l) && ((presI K298.t K298.l).lt (.rat 0.0031688) &&
    (Iv.lt (.rat 0.0031687) (presI K298.t K298.v) && ((presI K298.t K298.v).lt (.rat 0.0031688) &&
    (Iv.lt (.rat (-0.0001)) K298.g && K298.g.lt (.rat 0.0001)))))))))))) = true := by decide +kernel

lemma liq_kernel : (Iv.lt (.rat 1.00147) K298.b && (K298.b.lt (.rat 1.00148) && okI K298.t K298.b)) = true := by decide +kernel

lemma ps_kernel : (Iv.lt (.rat 0.0031687) K298.ps && K298.ps.lt (.rat 0.0031688)) = true := by decide +kernel

lemma ps_298 : 0.0031687 < PsHGK 298.15 ∧ PsHGK 298.15 < 0.0031688 := by
  have h := ps_enc t298
  change Enc _ (psI K298.t) at h
  rw [K298.ps_eq] at h
  have k := ps_kernel
  rw [Bool.and_eq_true] at k
  exact ⟨(Enc.lit (x := 0.0031687) 0.0031687 (by norm_num)).lt' h k.1, h.lt' (Enc.lit (x := 0.0031688) 0.0031688 (by norm_num)) k.2⟩

lemma sat_298 (fuel : ℕ) (hf : 1 ≤ fuel) : ∃ s, pcorr fuel 298.15 = some s ∧ Enc s.p K298.p ∧ Enc s.dL K298.l ∧ Enc s.dV K298.v := by
  obtain ⟨s, h, h1, h2, h3⟩ := pcorr_enc t298 K298.pcorr_eq fuel hf
  exact ⟨s, h, h1, h2, h3⟩

/-- Water at 298.15 K and 10 MPa. -/
lemma liq_298 {dL : ℝ} (h : Enc dL K298.l) : (denHGK 10 dL 298.15).conv = true ∧ 1.00147 < (denHGK 10 dL 298.15).d ∧ (denHGK 10 dL 298.15).d < 1.00148 ∧
    Ok 298.15 (denHGK 10 dL 298.15).d := by
  obtain ⟨h1, -, h3⟩ := den_enc p10 h t298 K298.b_eq
  have k := liq_kernel
  rw [Bool.and_eq_true, Bool.and_eq_true] at k
  exact ⟨h3, (Enc.lit (x := 1.00147) 1.00147 (by norm_num)).lt' h1 k.1, h1.lt' (Enc.lit (x := 1.00148) 1.00148 (by norm_num)) k.2.1, ok_of t298 h1 k.2.2⟩

/-- The hypothesis of `C127_partial` is met by liquid water at 298.15 K and 10 MPa, with the saturated density as guess: 1.00147 g/cm³. -/
example : ∃ dL, (denHGK 10 dL 298.15).conv = true ∧ 1.00147 < (denHGK 10 dL 298.15).d ∧ (denHGK 10 dL 298.15).d < 1.00148 ∧ Ok 298.15 (denHGK 10 dL 298.15).d := by
  obtain ⟨s, -, -, h, -⟩ := sat_298 1 le_rfl
  exact ⟨s.dL, liq_298 h⟩

/-! ### C128 -/

lemma pcorrLoop_last {t : ℝ} : ∀ (fuel : ℕ) (s0 s : Sat), pcorrLoop t fuel s0 = some s → ∃ q : Sat, |(corr t q.p q.dL q.dV).delg| ≤ 1e-4 ∧
    s = ⟨q.p + (corr t q.p q.dL q.dV).delg * gascon * t / (1 / (corr t q.p q.dL q.dV).dV - 1 / (corr t q.p q.dL q.dV).dL), (corr t q.p q.dL q.dV).dL, (corr t q.p q.dL q.dV).dV⟩ := by
  intro fuel
  induction fuel with
  | zero => intro s0 s h; simp [pcorrLoop] at h
  | succ fuel ih =>
    intro s0 s h
    unfold pcorrLoop at h
    dsimp only at h
    split_ifs at h with h1
    · exact ih _ _ h
    · simp only [Option.some.injEq] at h
      exact ⟨s0, by norm_num at h1 ⊢; exact h1, h.symm⟩

/-- If `pcorr` ends, there is a pressure `p0` and there are two density searches such that, when both succeed and the vapour is not thinner than 5e-7 g/cm³: liquid and
vapour both have the pressure `p0` to 1e-6, their Gibbs energies differ by at most 1e-4·R·T, and the saturation pressure is `p0` plus the step (G_l − G_v)/(v_v − v_l).
Missing: that the searches succeed (nothing checks it) and that the loop ends. -/
theorem C128_partial {fuel : ℕ} {t : ℝ} {s : Sat} (h : pcorr fuel t = some s) : ∃ p0 gl gv : ℝ,
    ((denHGK p0 gl t).conv = true → (denHGK p0 gv t).conv = true → 5e-7 ≤ (denHGK p0 gv t).d →
      s.dL = (denHGK p0 gl t).d ∧ s.dV = (denHGK p0 gv t).d ∧
      |1 - pEos t s.dL / p0| < 1e-6 ∧ |1 - pEos t s.dV / p0| < 1e-6 ∧ |gEos t s.dL - gEos t s.dV| ≤ 1e-4 * |gascon * t| ∧
      s.p = p0 + (gEos t s.dL - gEos t s.dV) / (1 / s.dV - 1 / s.dL)) := by
  obtain ⟨q, h1, rfl⟩ := pcorrLoop_last _ _ _ h
  refine ⟨q.p, if q.dL ≤ 0 then 1.11 - 0.0004 * t else q.dL, if q.dV ≤ 0 then q.p / (gascon * t) else q.dV, fun c1 c2 c3 => ?_⟩
  unfold corr at h1 ⊢
  dsimp only at h1 ⊢
  generalize (if q.dL ≤ 0 then 1.11 - 0.0004 * t else q.dL) = gl at *
  generalize (if q.dV ≤ 0 then q.p / (gascon * t) else q.dV) = gv at *
  have c3' : ¬ (denHGK q.p gv t).d < 5.0e-7 := by norm_num at c3 ⊢; exact c3
  rw [if_neg c3'] at h1 ⊢
  have e1 : (denHGK q.p gl t).e = (denHGK q.p gl t).d := (denLoop_conv 32 0 gl c1).2.2.1
  have e2 : (denHGK q.p gv t).e = (denHGK q.p gv t).d := (denLoop_conv 32 0 gv c2).2.2.1
  rw [e1, e2] at h1 ⊢
  have a1 := C127_partial c1
  have a2 := C127_partial c2
  have hg : ∀ d d', gEos t d - gEos t d' = (gdAt t d d - gdAt t d' d') * gascon * t := by intro d d'; unfold gEos gdAt; ring
  refine ⟨rfl, rfl, a1.2.2.1, a2.2.2.1, ?_, ?_⟩
  · rw [hg, mul_assoc, abs_mul]
    exact mul_le_mul_of_nonneg_right h1 (abs_nonneg _)
  · rw [hg]

/-- Saturation at 298.15 K: 0.003169 MPa, liquid 0.99701 and vapour 0.000023 g/cm³, with pressures that agree to 4e-5 and Gibbs energies that differ by less than 1e-4·R·T. -/
example (fuel : ℕ) (hf : 1 ≤ fuel) : ∃ s, pcorr fuel 298.15 = some s ∧ 0.003169 < s.p ∧ s.p < 0.0031691 ∧ 0.99701 < s.dL ∧ s.dL < 0.99702 ∧
    0.000023 < s.dV ∧ s.dV < 0.0000231 ∧ 0.0031687 < pEos 298.15 s.dL ∧ pEos 298.15 s.dL < 0.0031688 ∧ 0.0031687 < pEos 298.15 s.dV ∧
    pEos 298.15 s.dV < 0.0031688 ∧ |gEos 298.15 s.dL - gEos 298.15 s.dV| < 0.0001 * (gascon * 298.15) := by
  obtain ⟨s, hs, hp, hl, hv⟩ := sat_298 fuel hf
  have h := sat_kernel
  simp only [Bool.and_eq_true] at h
  obtain ⟨h1, h2, h3, h4, h5, h6, h7, h8, h9, h10, h11, h12⟩ := h
  have eg := (gn_enc t298 hl hl).sub (gn_enc t298 hv hv)
  change Enc _ (gnI K298.t K298.l K298.l - gnI K298.t K298.v K298.v) at eg
  rw [K298.g_eq] at eg
  have k11 := (Enc.lit (x := -0.0001) (-0.0001) (by norm_num)).lt' eg h11
  have k12 := eg.lt' (Enc.lit (x := 0.0001) 0.0001 (by norm_num)) h12
  have hg : gEos 298.15 s.dL - gEos 298.15 s.dV = (gnOf 298.15 s.dL s.dL - gnOf 298.15 s.dV s.dV) * (gascon * 298.15) := by
    have a1 : gEos 298.15 s.dL = gascon * 298.15 * gdAt 298.15 s.dL s.dL := rfl
    have a2 : gEos 298.15 s.dV = gascon * 298.15 * gdAt 298.15 s.dV s.dV := rfl
    rw [a1, a2, gdAt_eq, gdAt_eq]; ring
  have hpos : 0 < gascon * 298.15 := mul_pos gascon_pos (by norm_num)
  refine ⟨s, hs, ?_, ?_, ?_, ?_, ?_, ?_, ?_, ?_, ?_, ?_, ?_⟩
  · exact (Enc.lit (x := 0.003169) 0.003169 (by norm_num)).lt' hp h1
  · exact hp.lt' (Enc.lit (x := 0.0031691) 0.0031691 (by norm_num)) h2
  · exact (Enc.lit (x := 0.99701) 0.99701 (by norm_num)).lt' hl h3
  · exact hl.lt' (Enc.lit (x := 0.99702) 0.99702 (by norm_num)) h4
  · exact (Enc.lit (x := 0.000023) 0.000023 (by norm_num)).lt' hv h5
  · exact hv.lt' (Enc.lit (x := 0.0000231) 0.0000231 (by norm_num)) h6
  · exact (Enc.lit (x := 0.0031687) 0.0031687 (by norm_num)).lt' (pres_enc t298 hl) h7
  · exact (pres_enc t298 hl).lt' (Enc.lit (x := 0.0031688) 0.0031688 (by norm_num)) h8
  · exact (Enc.lit (x := 0.0031687) 0.0031687 (by norm_num)).lt' (pres_enc t298 hv) h9
  · exact (pres_enc t298 hv).lt' (Enc.lit (x := 0.0031688) 0.0031688 (by norm_num)) h10
  · rw [hg, abs_mul, abs_of_pos hpos]
    exact mul_lt_mul_of_pos_right (abs_lt.2 ⟨k11, k12⟩) hpos

/-! ### C129 -/

/-- The state left for compressed water. -/
lemma calculate_liquid {l : Lvs} {wtr : Triple} {fuel : ℕ} {T P : ℝ} {s0 : Sat} (hT : 0.01 ≤ T) (hT' : T < 369.85) (hP : 6.11732e-3 ≤ P) (hv : valTP T P)
    (hs : pcorr fuel (T + 273.15) = some s0) (h1 : s0.p + 1e-6 < P / 10) (h2 : PsHGK (T + 273.15) * 10 + 1e-14 ≤ P) :
    calculate l wtr fuel T P = some (.done ⟨false, P / 10 * 10, (denHGK (P / 10) 0 (T + 273.15)).d, (denHGK (P / 10) s0.dL (T + 273.15)).d,
      propsAt (tpset wtr) 0 (T + 273.15) (P / 10) (denHGK (P / 10) s0.dL (T + 273.15)).d (denHGK (P / 10) s0.dL (T + 273.15)).e,
      propsAt (tpset wtr) 1 (T + 273.15) (P / 10) (denHGK (P / 10) s0.dL (T + 273.15)).d (denHGK (P / 10) 0 (T + 273.15)).e⟩ P) := by
  have hps : 0 < PsHGK (T + 273.15) := by
    unfold PsHGK
    split_ifs
    · positivity
    · positivity
  have hP0 : 0 < P := by linarith
  unfold calculate
  dsimp only
  rw [if_neg (show ¬ (T < 0.01 ∧ T ≥ 0) from fun h => absurd h.1 (not_lt.2 hT)), if_neg (show ¬ P < 6.11732e-3 from not_lt.2 hP),
    if_pos (show T + 273.15 ≤ 647.067e0 by norm_num; linarith)]
  have hn : ¬ (|P| = 0 ∨ |(|P| - |PsHGK (T + 273.15) * 10|)| < 1e-14) := by
    rw [abs_of_pos hP0, abs_of_pos (show 0 < PsHGK (T + 273.15) * 10 by positivity)]
    rintro (h | h)
    · exact hP0.ne' h
    · rw [abs_lt] at h; linarith [h.2]
  rw [if_neg hn, if_neg (not_not.2 hv)]
  have hc : ¬ crtreg0 l (T + 273.15e0) (P / 10) := by
    intro h; exact h.1 (Or.inl (by norm_num; linarith))
  rw [if_neg hc]
  have e1 : hgkSat0 fuel (T + 273.15) (P / 10) = some (0, P / 10) := by
    unfold hgkSat0
    split_ifs with h
    · rfl
    · rw [hs, Option.map_some, if_neg]
      rw [abs_of_pos (by linarith)]
      norm_num at h1 ⊢; linarith
  have ht : T + 273.15 < tz := by unfold tz; norm_num; linarith
  have e2 : guessL fuel (T + 273.15) = some s0.dL := by unfold guessL; rw [if_pos ht, hs]; rfl
  have e3 : guess3 fuel (T + 273.15) (P / 10) = some s0.dL := by
    unfold guess3; rw [if_pos ht, hs, Option.map_some, if_pos (show P / 10 > s0.p by linarith)]
  unfold hgkEqn0
  rw [e1, e2, Option.bind_some, Option.bind_some, e3, Option.map_some]
  dsimp only
  rw [if_pos (show P / 10 * 10 > PsHGK (T + 273.15) * 10 ∧ T + 273.15 < 0.647126e3 from ⟨by linarith, by norm_num; linarith⟩)]
  rfl

/-- A density for all temperatures and pressures nearby. -/
lemma den_near {t d : ℝ} (h : Ok t d) (hk : dpddOf t d ≠ 0) :
    ∃ v : ℝ → ℝ → ℝ, Den v t (pEos t d) ∧ v t (pEos t d) = d ∧ ∀ᶠ q : ℝ × ℝ in nhds (t, pEos t d), Den v q.1 q.2 := by
  have j := total_jet h
  have cs : ContinuousAt (fun q : ℝ × ℝ => q.2) (t, d) := continuousAt_snd
  have cf : ContinuousAt (fun q : ℝ × ℝ => 2 * q.2 * (total q.1 q.2).fD + q.2 ^ 2 * (total q.1 q.2).fDD) (t, d) :=
    ((cs.const_mul 2).mul j.fD.continuousAt).add ((cs.pow 2).mul j.fDD.continuousAt)
  have h0 : 2 * d * (total t d).fD + d ^ 2 * (total t d).fDD ≠ 0 := by rw [← dpdd_eq h]; exact hk
  obtain ⟨v, h1, h2, h3, h4⟩ := Grad.solve_near (g := fun t d => presOf (evalAt t d) t d) (a := fun t d => d ^ 2 * (total t d).fTD)
    (b := fun t d => 2 * d * (total t d).fD + d ^ 2 * (total t d).fDD) (x := t) (y := d) (h.eventually.mono fun q hq => pres_grad hq)
    ((cs.pow 2).mul j.fTD.continuousAt) cf h0
  change v t (pEos t d) = d at h2
  refine ⟨v, ⟨h1, h3, by rw [h2]; exact h, by rw [h2]; exact hk⟩, h2, ?_⟩
  have hm : Filter.Tendsto (fun q : ℝ × ℝ => (q.1, v q.1 q.2)) (nhds (t, pEos t d)) (nhds (t, d)) := by
    have := (continuousAt_fst (p := (t, pEos t d))).prodMk h1
    unfold ContinuousAt at this
    dsimp only at this
    rw [h2] at this
    exact this
  filter_upwards [h4, h3.eventually_nhds, hm.eventually h.eventually, hm.eventually (cf.eventually_ne h0)] with q q4 q3 q1 q0
  exact ⟨q4, q3, q1, by rw [dpdd_eq q1]; exact q0⟩

/-- The phase `k` of the state `s` is water of temperature `t` (K) and density `d` (g/cm³): the density and the molar volume (J/bar) handed out are those of `d`, and for a density v(T, P)
that solves the equation of state and is `d` at `t`, the derivatives of the density and the heat capacity handed out are those of v and of the enthalpy along v. -/
structure Phase (tt : Triple) (sat : ℕ) (s : Sta) (k : ℕ) (t d : ℝ) (v : ℝ → ℝ → ℝ) : Prop where
  density : (s.solv k).density = 1000 * d
  volume : (s.thermo k).V = 1.8015268 / d
  den : Den v t (pEos t d)
  self : v t (pEos t d) = d
  densityT : HasDerivAt (fun x => 1000 * v x (pEos t d)) (s.solv k).densityT t
  densityP : HasDerivAt (fun p => 1000 * v t (p * 1e-6)) (s.solv k).densityP (pEos t d * 1e6)
  densityTT : t ≤ 522 ∨ 758 ≤ t → ∃ r : ℝ → ℝ, (∀ᶠ x in nhds t, HasDerivAt (fun x => 1000 * v x (pEos t d)) (r x) x) ∧ HasDerivAt r (s.solv k).densityTT t
  enthalpy : (s.thermo k).H = calToJ * (props tt sat v t (pEos t d)).H
  cp : HasDerivAt (fun x => calToJ * (props tt sat v x (pEos t d)).H) (s.thermo k).Cp t
  cv : (s.thermo k).Cp - (s.thermo k).Cv = 4.305816 * calToJ * t * (s.solv k).Alpha ^ 2 / (d * (1e6 * (s.solv k).Beta))
  speed : (s.solv k).speedOfSound = 100 * Real.sqrt |1000 * (s.thermo k).Cp / (s.thermo k).Cv / (d * (1e6 * (s.solv k).Beta))|

lemma phase_of {tt : Triple} {sat k : ℕ} {s : Sta} {t p d : ℝ} (hk : s.pick k = (propsAt tt sat t p d d, d)) (hok : Ok t d) (hd : dpddOf t d ≠ 0) :
    ∃ v, Phase tt sat s k t d v := by
  obtain ⟨v, hd, hvd, hn⟩ := den_near hok hd
  obtain ⟨k1, k2, k3, -, k5, k6, -⟩ := C123_consistent tt sat hd
  have ea : (s.solv k).Alpha = (props tt sat v t (pEos t d)).alpha := by simp only [Sta.solv, hk, propsAt]; unfold props; rw [hvd]; rfl
  have eb : (s.solv k).Beta = (props tt sat v t (pEos t d)).beta / 1e5 := by simp only [Sta.solv, hk, propsAt]; unfold props; rw [hvd]; rfl
  have edT : (s.solv k).densityT = -(props tt sat v t (pEos t d)).alpha * (d * 1000) := by simp only [Sta.solv, hk, propsAt]; unfold props; rw [hvd]; rfl
  have edTT : (s.solv k).densityTT = (d * 1000) * ((props tt sat v t (pEos t d)).alpha ^ 2 - (props tt sat v t (pEos t d)).dAldT) := by
    simp only [Sta.solv, hk, propsAt]; unfold props; rw [hvd]; rfl
  have edP : (s.solv k).densityP = (props tt sat v t (pEos t d)).beta / 1e5 * (d * 1000) := by simp only [Sta.solv, hk, propsAt]; unfold props; rw [hvd]; rfl
  have eH : (s.thermo k).H = (props tt sat v t (pEos t d)).H * calToJ := by simp only [Sta.thermo, hk, propsAt]; unfold props; rw [hvd]; rfl
  have eCp : (s.thermo k).Cp = (props tt sat v t (pEos t d)).Cp * calToJ := by simp only [Sta.thermo, hk, propsAt]; unfold props; rw [hvd]; rfl
  have eCv : (s.thermo k).Cv = (props tt sat v t (pEos t d)).Cv * calToJ := by simp only [Sta.thermo, hk, propsAt]; unfold props; rw [hvd]; rfl
  have eS : (s.solv k).speedOfSound = (props tt sat v t (pEos t d)).speed := by simp only [Sta.solv, hk, propsAt]; unfold props; rw [hvd]; rfl
  have hc : calToJ ≠ 0 := by unfold calToJ; norm_num
  refine ⟨v, ?_, ?_, hd, hvd, ?_, ?_, fun hr => ?_, ?_, ?_, ?_, ?_⟩
  · simp only [Sta.solv, hk]; ring
  · simp only [Sta.thermo, hk]; norm_num; ring
  · refine (k1.const_mul 1000).congr_deriv ?_
    rw [edT, hvd]; ring
  · have k2' : HasDerivAt (fun p => v t p) (10 * (props tt sat v t (pEos t d)).beta * v t (pEos t d)) (pEos t d * 1e6 * 1e-6) := by
      rw [show pEos t d * 1e6 * 1e-6 = pEos t d by norm_num [mul_assoc]]
      exact k2
    have k := (k2'.comp (pEos t d * 1e6) ((hasDerivAt_id _).mul_const (1e-6 : ℝ))).const_mul 1000
    refine k.congr_deriv ?_
    rw [edP, hvd]; norm_num; ring
  · refine ⟨fun x => 1000 * (-(props tt sat v x (pEos t d)).alpha * v x (pEos t d)), ?_, ?_⟩
    · have c : ContinuousAt (fun x : ℝ => (x, pEos t d)) t := by fun_prop
      exact (c.eventually hn).mono fun x hx => (C123_consistent tt sat hx).1.const_mul 1000
    · refine (((C125_partial tt sat hd hr).fun_neg.mul k1).const_mul 1000).congr_deriv ?_
      rw [edTT, hvd]; ring
  · rw [eH]; ring
  · refine (k3.const_mul calToJ).congr_deriv ?_
    rw [eCp]; ring
  · rw [eCp, eCv, ← sub_mul, k5, ea, eb, hvd]; norm_num; ring
  · rw [eS, k6, eCp, eCv, eb, hvd]
    congr 3
    rcases eq_or_ne (props tt sat v t (pEos t d)).Cv 0 with h0 | h0
    · rw [h0]; simp
    · field_simp; norm_num; ring

/-- Compressed water below 369.85 °C: when the search for the density succeeds, the liquid (state 0) is handed out with the pressure asked for, with a density that gives this
pressure to 1e-6, and with the properties of this density.  Missing: the vapour (state 1), see `C129_refuted`, failed searches, steam and the near-critical region (saturation: C132). -/
theorem C129_partial {l : Lvs} {wtr : Triple} {fuel : ℕ} {T P : ℝ} {s0 : Sat} (hT : 0.01 ≤ T) (hT' : T < 369.85) (hP : 6.11732e-3 ≤ P) (hv : valTP T P)
    (hs : pcorr fuel (T + 273.15) = some s0) (h1 : s0.p + 1e-6 < P / 10) (h2 : PsHGK (T + 273.15) * 10 + 1e-14 ≤ P)
    (hc : (denHGK (P / 10) s0.dL (T + 273.15)).conv = true) (hok : Ok (T + 273.15) (denHGK (P / 10) s0.dL (T + 273.15)).d) :
    ∃ (s : Sta) (v : ℝ → ℝ → ℝ) (d : ℝ), calculate l wtr fuel T P = some (.done s P) ∧ (s.solv 0).pressure = P * 1e5 ∧
    |1 - pEos (T + 273.15) d / (P / 10)| < 1e-6 ∧ Phase (tpset wtr) 0 s 0 (T + 273.15) d v := by
  have hcal := calculate_liquid (l := l) (wtr := wtr) hT hT' hP hv hs h1 h2
  obtain ⟨c1, c2, c3, c4, c5⟩ := denLoop_conv 32 0 s0.dL hc
  change (denHGK (P / 10) s0.dL (T + 273.15)).e = (denHGK (P / 10) s0.dL (T + 273.15)).d at c3
  change 0 < dpddOf (T + 273.15) (denHGK (P / 10) s0.dL (T + 273.15)).d at c5
  have a := (C127_partial hc).2.2.1
  rw [c3] at hcal
  obtain ⟨v, hv⟩ := phase_of (s := ⟨false, P / 10 * 10, (denHGK (P / 10) 0 (T + 273.15)).d, (denHGK (P / 10) s0.dL (T + 273.15)).d,
      propsAt (tpset wtr) 0 (T + 273.15) (P / 10) (denHGK (P / 10) s0.dL (T + 273.15)).d (denHGK (P / 10) s0.dL (T + 273.15)).d,
      propsAt (tpset wtr) 1 (T + 273.15) (P / 10) (denHGK (P / 10) s0.dL (T + 273.15)).d (denHGK (P / 10) 0 (T + 273.15)).e⟩) (k := 0) (tt := tpset wtr) (sat := 0) (p := P / 10)
      (by simp only [Sta.pick, and_true, true_and, Bool.false_eq_true, or_true, if_true]) hok c5.ne'
  refine ⟨_, v, _, hcal, ?_, a, hv⟩
  simp only [Sta.solv]; ring

lemma valTP_25 : valTP 25 100 := by
  refine ⟨by norm_num, fun h => by norm_num at h, fun _ _ => by norm_num, fun _ h => by norm_num at h⟩

lemma hyp_25 (fuel : ℕ) (hf : 1 ≤ fuel) : ∃ s0, pcorr fuel (25 + 273.15) = some s0 ∧ s0.p + 1e-6 < 100 / 10 ∧ PsHGK (25 + 273.15) * 10 + 1e-14 ≤ 100 ∧
    (denHGK (100 / 10) s0.dL (25 + 273.15)).conv = true ∧ 1.00147 < (denHGK (100 / 10) s0.dL (25 + 273.15)).d ∧ (denHGK (100 / 10) s0.dL (25 + 273.15)).d < 1.00148 ∧
    Ok (25 + 273.15) (denHGK (100 / 10) s0.dL (25 + 273.15)).d := by
  obtain ⟨s, hs, hp, hl, hv⟩ := sat_298 fuel hf
  have e1 : (25 + 273.15 : ℝ) = 298.15 := by norm_num
  have e2 : (100 / 10 : ℝ) = 10 := by norm_num
  rw [e1, e2]
  have h := sat_kernel
  simp only [Bool.and_eq_true] at h
  have k := hp.lt' (Enc.lit (x := 0.0031691) 0.0031691 (by norm_num)) h.2.1
  obtain ⟨l1, l2, l3, l4⟩ := liq_298 hl
  have hps := ps_298.2
  exact ⟨s, hs, by norm_num at k ⊢; linarith, by norm_num at hps ⊢; linarith, l1, l2, l3, l4⟩

/-- The hypotheses of `C129_partial` are met at 25 °C and 100 bar: 1.00147 g/cm³. -/
example (fuel : ℕ) (hf : 1 ≤ fuel) : ∃ s0, (0.01 : ℝ) ≤ 25 ∧ (25 : ℝ) < 369.85 ∧ (6.11732e-3 : ℝ) ≤ 100 ∧ valTP 25 100 ∧ pcorr fuel (25 + 273.15) = some s0 ∧ s0.p + 1e-6 < 100 / 10 ∧
    PsHGK (25 + 273.15) * 10 + 1e-14 ≤ 100 ∧ (denHGK (100 / 10) s0.dL (25 + 273.15)).conv = true ∧ 1.00147 < (denHGK (100 / 10) s0.dL (25 + 273.15)).d ∧
    Ok (25 + 273.15) (denHGK (100 / 10) s0.dL (25 + 273.15)).d := by
  obtain ⟨s0, h1, h2, h3, h4, h5, h6, h7⟩ := hyp_25 fuel hf
  exact ⟨s0, by norm_num, by norm_num, by norm_num, valTP_25, h1, h2, h3, h4, h5, h7⟩

/-- At 25 °C and 100 bar, the vapour (state 1) is handed out with a density of 54 kg/m³, at which the pressure of the equation of state is below −900 bar, with the pressure 100 bar, and with a negative
compressibility. -/
theorem C129_refuted (l : Lvs) (wtr : Triple) (fuel : ℕ) (hf : 1 ≤ fuel) : ∃ s : Sta, calculate l wtr fuel 25 100 = some (.done s 100) ∧ (s.solv 1).pressure = 100e5 ∧
    53.9 < (s.solv 1).density ∧ (s.solv 1).density < 54 ∧ pEos 298.15 ((s.solv 1).density / 1000) < -90 ∧ (s.solv 1).Beta < 0 := by
  obtain ⟨s0, h1, h2, h3, h4, h5, h6, h7⟩ := hyp_25 fuel hf
  have hcal := calculate_liquid (l := l) (wtr := wtr) (T := 25) (P := 100) (by norm_num) (by norm_num) (by norm_num) valTP_25 h1 h2 h3
  obtain ⟨-, k2, k3, k4, k5⟩ := den0_298
  have e1 : (25 + 273.15 : ℝ) = 298.15 := by norm_num
  have e2 : (100 / 10 : ℝ) = 10 := by norm_num
  rw [e1, e2] at hcal h5
  refine ⟨_, hcal, ?_, ?_, ?_, ?_, ?_⟩
  · simp only [Sta.solv]; norm_num
  · simp only [Sta.solv, Sta.pick, one_ne_zero, and_false, false_and, or_self, if_false, Bool.false_eq_true, and_self, or_true, if_true]
    norm_num at k2 ⊢; linarith
  · simp only [Sta.solv, Sta.pick, one_ne_zero, and_false, false_and, or_self, if_false, Bool.false_eq_true, and_self, or_true, if_true]
    norm_num at k3 ⊢; linarith
  · simp only [Sta.solv, Sta.pick, one_ne_zero, and_false, false_and, or_self, if_false, Bool.false_eq_true, and_self, or_true, if_true]
    rw [mul_div_assoc, div_self (by norm_num : (1000 : ℝ) ≠ 0), mul_one]; exact k4
  · simp only [Sta.solv, Sta.pick, one_ne_zero, and_false, false_and, or_self, if_false, Bool.false_eq_true, and_self, or_true, if_true]
    have e : (propsAt (tpset wtr) 1 298.15 10 (denHGK 10 s0.dL 298.15).d (denHGK 10 0 298.15).e).beta =
      1 / ((denHGK 10 s0.dL 298.15).d * dpddOf 298.15 (denHGK 10 0 298.15).e * un.fp) := rfl
    rw [e, un_fp]
    have hd : 0 < (denHGK 10 s0.dL 298.15).d := by norm_num at h5; linarith
    have hneg : (denHGK 10 s0.dL 298.15).d * dpddOf 298.15 (denHGK 10 0 298.15).e * 10 < 0 := by nlinarith
    exact div_neg_of_neg_of_pos (one_div_neg.2 hneg) (by norm_num)

/-! ### C132 -/

/-- The state left at saturation. -/
lemma calculate_sat {l : Lvs} {wtr : Triple} {fuel : ℕ} {T : ℝ} {s0 : Sat} (hT : 0.01 ≤ T) (hT' : T < 369.85) (hs : pcorr fuel (T + 273.15) = some s0) :
    calculate l wtr fuel T 0 = some (.done ⟨true, pEos (T + 273.15) s0.dL * 10, s0.dL, s0.dV,
      propsAt (tpset wtr) 1 (T + 273.15) (pEos (T + 273.15) s0.dV) s0.dV s0.dV, propsAt (tpset wtr) 1 (T + 273.15) (pEos (T + 273.15) s0.dL) s0.dL s0.dL⟩
      (PsHGK (T + 273.15) * 10)) := by
  unfold calculate
  dsimp only
  rw [if_neg (show ¬ (T < 0.01 ∧ T ≥ 0) from fun h => absurd h.1 (not_lt.2 hT)), if_pos (show (0 : ℝ) < 6.11732e-3 by norm_num), if_pos (Or.inl abs_zero), if_neg, if_neg]
  · unfold hgkEqn1
    rw [hs]
    rfl
  · norm_num; linarith
  · rw [not_not]; constructor <;> norm_num <;> linarith

/-- Saturated water below 369.85 °C: when `pcorr` ends, liquid (state 0) and vapour (state 1) are handed out each with the properties of its density, and the pressure handed out with them is
that of the liquid.  Missing: that the pressure handed back to the caller is this pressure, see `C132_refuted`; the near-critical region. -/
theorem C132_partial {l : Lvs} {wtr : Triple} {fuel : ℕ} {T : ℝ} {s0 : Sat} (hT : 0.01 ≤ T) (hT' : T < 369.85) (hs : pcorr fuel (T + 273.15) = some s0)
    (hL : Ok (T + 273.15) s0.dL) (hV : Ok (T + 273.15) s0.dV) (kL : dpddOf (T + 273.15) s0.dL ≠ 0) (kV : dpddOf (T + 273.15) s0.dV ≠ 0) :
    ∃ (s : Sta) (vL vV : ℝ → ℝ → ℝ) (P : ℝ), calculate l wtr fuel T 0 = some (.done s P) ∧ Phase (tpset wtr) 1 s 0 (T + 273.15) s0.dL vL ∧
    Phase (tpset wtr) 1 s 1 (T + 273.15) s0.dV vV ∧ (s.solv 0).pressure = pEos (T + 273.15) s0.dL * 1e6 := by
  obtain ⟨vL, h1⟩ := phase_of (s := ⟨true, pEos (T + 273.15) s0.dL * 10, s0.dL, s0.dV, propsAt (tpset wtr) 1 (T + 273.15) (pEos (T + 273.15) s0.dV) s0.dV s0.dV,
    propsAt (tpset wtr) 1 (T + 273.15) (pEos (T + 273.15) s0.dL) s0.dL s0.dL⟩) (k := 0) (tt := tpset wtr) (sat := 1) (p := pEos (T + 273.15) s0.dL) (by simp [Sta.pick]) hL kL
  obtain ⟨vV, h2⟩ := phase_of (s := ⟨true, pEos (T + 273.15) s0.dL * 10, s0.dL, s0.dV, propsAt (tpset wtr) 1 (T + 273.15) (pEos (T + 273.15) s0.dV) s0.dV s0.dV,
    propsAt (tpset wtr) 1 (T + 273.15) (pEos (T + 273.15) s0.dL) s0.dL s0.dL⟩) (k := 1) (tt := tpset wtr) (sat := 1) (p := pEos (T + 273.15) s0.dV) (by simp [Sta.pick]) hV kV
  refine ⟨_, vL, vV, _, calculate_sat hT hT' hs, h1, h2, ?_⟩
  simp only [Sta.solv]; ring

lemma sat_ok_kernel : (okI K298.t K298.l && (okI K298.t K298.v && (Iv.lt (.rat 0) (dpddI K298.t K298.l) && (Iv.lt (.rat 0) (dpddI K298.t K298.v) &&
    (presI K298.t K298.l).lt K298.ps)))) = true := by decide +kernel

lemma sat_25 (fuel : ℕ) (hf : 1 ≤ fuel) : ∃ s0, pcorr fuel (25 + 273.15) = some s0 ∧ Ok (25 + 273.15) s0.dL ∧ Ok (25 + 273.15) s0.dV ∧ 0 < dpddOf (25 + 273.15) s0.dL ∧
    0 < dpddOf (25 + 273.15) s0.dV ∧ pEos (25 + 273.15) s0.dL < PsHGK (25 + 273.15) := by
  obtain ⟨s, hs, hp, hl, hv⟩ := sat_298 fuel hf
  have e1 : (25 + 273.15 : ℝ) = 298.15 := by norm_num
  rw [e1]
  have h := sat_ok_kernel
  rw [Bool.and_eq_true, Bool.and_eq_true, Bool.and_eq_true, Bool.and_eq_true] at h
  have h' := ps_enc t298
  change Enc _ (psI K298.t) at h'
  rw [K298.ps_eq] at h'
  exact ⟨s, hs, ok_of t298 hl h.1, ok_of t298 hv h.2.1, z0.lt' (dpdd_enc t298 hl) h.2.2.1, z0.lt' (dpdd_enc t298 hv) h.2.2.2.1, (pres_enc t298 hl).lt' h' h.2.2.2.2⟩

/-- The hypotheses of `C132_partial` are met at 25 °C. -/
example (fuel : ℕ) (hf : 1 ≤ fuel) : ∃ s0, (0.01 : ℝ) ≤ 25 ∧ (25 : ℝ) < 369.85 ∧ pcorr fuel (25 + 273.15) = some s0 ∧ Ok (25 + 273.15) s0.dL ∧ Ok (25 + 273.15) s0.dV ∧
    dpddOf (25 + 273.15) s0.dL ≠ 0 ∧ dpddOf (25 + 273.15) s0.dV ≠ 0 := by
  obtain ⟨s0, h1, h2, h3, h4, h5, -⟩ := sat_25 fuel hf
  exact ⟨s0, by norm_num, by norm_num, h1, h2, h3, h4.ne', h5.ne'⟩

/-- At 25 °C the pressure handed back (bar) is above the one handed out with the properties (Pa). -/
theorem C132_refuted (l : Lvs) (wtr : Triple) (fuel : ℕ) (hf : 1 ≤ fuel) : ∃ (s : Sta) (P : ℝ), calculate l wtr fuel 25 0 = some (.done s P) ∧ (s.solv 0).pressure < P * 1e5 := by
  obtain ⟨s0, h1, -, -, -, -, h6⟩ := sat_25 fuel hf
  refine ⟨_, _, calculate_sat (by norm_num) (by norm_num) h1, ?_⟩
  simp only [Sta.solv]
  linarith

/-! ### C130, C131 -/

section

variable {T P : ℝ} {v : ℝ → ℝ → ℝ} {tt : Triple} {sat k : ℕ} {st : ℝ → ℝ → Sta}

/-- The states `st T P` hold, for the phase `k`, the properties of water with the density v(T, P). -/
def Holds (tt : Triple) (sat : ℕ) (v : ℝ → ℝ → ℝ) (k : ℕ) (st : ℝ → ℝ → Sta) : Prop := ∀ T P, (st T P).pick k = (props tt sat v T P, v T P)

/-- The derivative of the permittivity by pressure is ε²·Q, with Q per pascal as handed out, and by temperature ε_T; the second derivative by temperature is ε_TT away from the
temperatures of C125.  ε_P as handed out is the derivative per bar.  Missing: ε_P per pascal, the unit of the other derivatives by pressure (`bornQ`, `densityP`, `Beta`, and ε_P of
WaterJN91reaktoro.cpp), see `C130_refuted`. -/
theorem C130_partial (hst : Holds tt sat v k st) (h : Den v T P) (hT : T < 1273.151) (hP : P < 500.0001) (h0 : ((st T P).electro k).epsilon ≠ 0) :
    HasDerivAt (fun p => ((st T (p * 1e-6)).electro k).epsilon) (((st T P).electro k).epsilon ^ 2 * ((st T P).electro k).bornQ) (P * 1e6) ∧
    HasDerivAt (fun p => ((st T (p / 10)).electro k).epsilon) ((st T P).electro k).epsilonP (P * 10) ∧
    HasDerivAt (fun x => ((st x P).electro k).epsilon) ((st T P).electro k).epsilonT T ∧
    (T ≤ 522 ∨ 758 ≤ T → HasDerivAt (fun x => ((st x P).electro k).epsilonT) ((st T P).electro k).epsilonTT T) := by
  have hp : ∀ T P, ((st T P).pick k).1 = props tt sat v T P := fun T P => by rw [hst T P]
  have hv : ∀ T P, (st T P).electro k = { epsilon := (props tt sat v T P).diel, bornZ := (props tt sat v T P).Z, bornY := (props tt sat v T P).Y, bornQ := (props tt sat v T P).Q / 1e05, bornX := (props tt sat v T P).X, epsilonT := (props tt sat v T P).Y * (props tt sat v T P).diel ^ 2, epsilonTT := ((props tt sat v T P).X + 2 * (props tt sat v T P).diel * (props tt sat v T P).Y ^ 2) * (props tt sat v T P).diel ^ 2, epsilonP := (props tt sat v T P).Q * (props tt sat v T P).diel ^ 2 } := by
    intro T P; unfold Sta.electro; dsimp only; rw [hp T P]
  simp only [hv] at h0 ⊢
  obtain ⟨b1, b2, b3, b4⟩ := C126_partial tt sat h hT hP h0
  have evT : ∀ᶠ x in nhds T, (props tt sat v x P).diel = -1 / (props tt sat v x P).Z := (eventually_lt_nhds hT).mono fun x hx => by
    obtain ⟨p1, p2, -⟩ := props_born (v := v) tt sat hx hP
    rw [p1, p2, div_div_eq_mul_div]; ring
  have evP : ∀ᶠ x in nhds P, (props tt sat v T x).diel = -1 / (props tt sat v T x).Z := (eventually_lt_nhds hP).mono fun x hx => by
    obtain ⟨p1, p2, -⟩ := props_born (v := v) tt sat hT hx
    rw [p1, p2, div_div_eq_mul_div]; ring
  have hz : (props tt sat v T P).Z ≠ 0 := by rw [b1]; exact div_ne_zero (by norm_num) h0
  have dT : HasDerivAt (fun x => (props tt sat v x P).diel) ((props tt sat v T P).Y * (props tt sat v T P).diel ^ 2) T := by
    refine (((hasDerivAt_const T (-1 : ℝ)).div b2 hz).congr_of_eventuallyEq evT).congr_deriv ?_
    rw [evT.self_of_nhds]; field_simp; ring
  have dP : HasDerivAt (fun x => (props tt sat v T x).diel) (10 * (props tt sat v T P).Q * (props tt sat v T P).diel ^ 2) P := by
    refine (((hasDerivAt_const P (-1 : ℝ)).div b3 hz).congr_of_eventuallyEq evP).congr_deriv ?_
    rw [evP.self_of_nhds]; field_simp; ring
  refine ⟨?_, ?_, dT, fun hr => ?_⟩
  · have e : P * 1e6 * 1e-6 = P := by norm_num [mul_assoc]
    have d := (show HasDerivAt (fun x => (props tt sat v T x).diel) _ (P * 1e6 * 1e-6) by rw [e]; exact dP).comp (P * 1e6) ((hasDerivAt_id _).mul_const (1e-6 : ℝ))
    exact d.congr_deriv (by norm_num; ring)
  · have e : P * 10 / 10 = P := by ring
    have d := (show HasDerivAt (fun x => (props tt sat v T x).diel) _ (P * 10 / 10) by rw [e]; exact dP).comp (P * 10) ((hasDerivAt_id _).div_const (10 : ℝ))
    exact d.congr_deriv (by ring)
  · exact ((b4 hr).mul (dT.pow 2)).congr_deriv (by simp only [Pi.pow_apply]; ring)

/-- A family of states. -/
noncomputable def stOf (tt : Triple) (v : ℝ → ℝ → ℝ) (T P : ℝ) : Sta := ⟨false, P * 10, v T P, v T P, props tt 0 v T P, props tt 0 v T P⟩

lemma stOf_holds (tt : Triple) (v : ℝ → ℝ → ℝ) : Holds tt 0 v 0 (stOf tt v) := by
  intro T P; simp [stOf, Sta.pick]

lemma born_298 : ∃ (v : ℝ → ℝ → ℝ) (P : ℝ), Den v 298.15 P ∧ v 298.15 P = 0.9971 ∧ P < 500.0001 ∧ 78.2 < (props tripleNEA 0 v 298.15 P).diel ∧
    0 < (props tripleNEA 0 v 298.15 P).Q := by
  obtain ⟨v, h, hv⟩ := den_exists ok_298 (by have := dpdd_298; linarith)
  have hd := Enc.lit (x := 0.9971) 0.9971 (by norm_num)
  have hp : presOf (evalAt 298.15 0.9971) 298.15 0.9971 < 500.0001 := by
    have l := (pres_enc t298 hd).lt_rat 500 (by decide +kernel)
    push_cast at l
    linarith
  have l1 : ∀ b a x, 78.2 < (jn91 298.15 0.9971 b a x).eps := fun b a x => by
    have l := (eps_enc t298 hd b a x).rat_lt 78.2 (by decide +kernel)
    push_cast at l; norm_num at l ⊢; exact l
  obtain ⟨p1, -, p3, -⟩ := props_born (v := v) tripleNEA 0 (T := 298.15) (by norm_num) hp
  have hb : 0 < (props tripleNEA 0 v 298.15 (presOf (evalAt 298.15 0.9971) 298.15 0.9971)).beta := by
    have e : (props tripleNEA 0 v 298.15 (presOf (evalAt 298.15 0.9971) 298.15 0.9971)).beta = 1 / (v 298.15 (presOf (evalAt 298.15 0.9971) 298.15 0.9971) *
      (thmHGK (evalAt 298.15 (v 298.15 (presOf (evalAt 298.15 0.9971) 298.15 0.9971))) 298.15 (v 298.15 (presOf (evalAt 298.15 0.9971) 298.15 0.9971))).dpdd * un.fp) := rfl
    rw [e, hv, un_fp]
    have := dpdd_298
    exact one_div_pos.2 (mul_pos (mul_pos (by norm_num) (by linarith)) (by norm_num))
  have hD : 0 < jnD1 298.15 0.9971 := by
    have l := (jnD1_enc t298 hd).rat_lt 0 (by decide +kernel)
    push_cast at l; exact l
  refine ⟨v, _, h, hv, hp, by rw [p1, hv]; exact l1 _ _ _, ?_⟩
  rw [p3, hv, jn_dedP]
  have := l1 (props tripleNEA 0 v 298.15 (presOf (evalAt 298.15 0.9971) 298.15 0.9971)).beta (props tripleNEA 0 v 298.15 (presOf (evalAt 298.15 0.9971) 298.15 0.9971)).alpha
    (props tripleNEA 0 v 298.15 (presOf (evalAt 298.15 0.9971) 298.15 0.9971)).dAldT
  have h0 : 0 < (jn91 298.15 0.9971 (props tripleNEA 0 v 298.15 (presOf (evalAt 298.15 0.9971) 298.15 0.9971)).beta
    (props tripleNEA 0 v 298.15 (presOf (evalAt 298.15 0.9971) 298.15 0.9971)).alpha (props tripleNEA 0 v 298.15 (presOf (evalAt 298.15 0.9971) 298.15 0.9971)).dAldT).eps := by linarith
  positivity

/-- Liquid water at 298.15 K meets the hypotheses of `C130_partial`. -/
example : ∃ (v : ℝ → ℝ → ℝ) (P : ℝ), Holds tripleNEA 0 v 0 (stOf tripleNEA v) ∧ Den v 298.15 P ∧ v 298.15 P = 0.9971 ∧ P < 500.0001 ∧
    78.2 < ((stOf tripleNEA v 298.15 P).electro 0).epsilon := by
  obtain ⟨v, P, h1, h2, h3, h4, -⟩ := born_298
  refine ⟨v, P, stOf_holds _ _, h1, h2, h3, ?_⟩
  simp only [Sta.electro, stOf_holds tripleNEA v 298.15 P]; exact h4

/-- For water at 298.15 K and 0.9971 g/cm³, ε_P as handed out is 100000 times the derivative of ε per pascal, and not equal to it. -/
theorem C130_refuted : ∃ (v : ℝ → ℝ → ℝ) (P D : ℝ), Den v 298.15 P ∧ v 298.15 P = 0.9971 ∧ 0 < D ∧
    HasDerivAt (fun p => ((stOf tripleNEA v 298.15 (p * 1e-6)).electro 0).epsilon) D (P * 1e6) ∧ ((stOf tripleNEA v 298.15 P).electro 0).epsilonP = 100000 * D := by
  obtain ⟨v, P, h1, h2, h3, h4, h5⟩ := born_298
  have e : ((stOf tripleNEA v 298.15 P).electro 0).epsilon = (props tripleNEA 0 v 298.15 P).diel := by simp only [Sta.electro, stOf_holds tripleNEA v 298.15 P]
  have e' : ((stOf tripleNEA v 298.15 P).electro 0).epsilonP = (props tripleNEA 0 v 298.15 P).Q * (props tripleNEA 0 v 298.15 P).diel ^ 2 := by
    simp only [Sta.electro, stOf_holds tripleNEA v 298.15 P]
  have e'' : ((stOf tripleNEA v 298.15 P).electro 0).bornQ = (props tripleNEA 0 v 298.15 P).Q / 1e05 := by
    simp only [Sta.electro, stOf_holds tripleNEA v 298.15 P]
  have hpos : 0 < (props tripleNEA 0 v 298.15 P).diel := by linarith
  obtain ⟨c, -⟩ := C130_partial (stOf_holds tripleNEA v) h1 (by norm_num) h3 (by rw [e]; exact hpos.ne')
  refine ⟨v, P, _, h1, h2, ?_, c, ?_⟩
  · rw [e, e'']; positivity
  · rw [e, e', e'']; norm_num; ring

/-- The enthalpy handed out (J/mol) depends on the pressure (bar) as κ·V·(1 − αT), with the volume V and the expansivity α handed out and κ = 4.305816·4.184/18.015268, which is
1 to 2·10⁻⁵.  Missing: κ = 1, see `C131_refuted`: energies are per 18.0155… g and volumes per 18.015268 g of water. -/
theorem C131_partial (hst : Holds tt sat v k st) (h : Den v T P) :
    HasDerivAt (fun p => ((st T (p / 10)).thermo k).H) (4.305816 * 4.184 / 18.015268 * (((st T P).thermo k).V * (1 - ((st T P).solv k).Alpha * T))) (P * 10) ∧
    |4.305816 * 4.184 / 18.015268 - (1 : ℝ)| < 2e-5 := by
  have hH : ∀ T P, ((st T P).thermo k).H = (props tt sat v T P).H * calToJ := fun T P => by simp only [Sta.thermo, hst T P]
  have hV : ((st T P).thermo k).V = 1 / v T P * 18.015268 * 0.1 := by simp only [Sta.thermo, hst T P]
  have hA : ((st T P).solv k).Alpha = (props tt sat v T P).alpha := by simp only [Sta.solv, hst T P]
  obtain ⟨-, -, -, c, -⟩ := C123_consistent tt sat h
  simp only [hH, hV, hA]
  constructor
  · have e : P * 10 / 10 = P := by ring
    have d := ((show HasDerivAt (fun x => (props tt sat v T x).H) _ (P * 10 / 10) by rw [e]; exact c).comp (P * 10) ((hasDerivAt_id _).div_const (10 : ℝ))).mul_const calToJ
    refine d.congr_deriv ?_
    unfold calToJ
    have := h.ok.hd.ne'
    field_simp
    norm_num
    ring
  · rw [abs_lt]; constructor <;> norm_num

example : ∃ (v : ℝ → ℝ → ℝ) (P : ℝ), Holds tripleNEA 0 v 0 (stOf tripleNEA v) ∧ Den v 298.15 P ∧ v 298.15 P = 0.9971 := by
  obtain ⟨v, P, h, hv⟩ := den_298
  exact ⟨v, P, stOf_holds _ _, h, hv⟩

/-- For water at 298.15 K and 0.9971 g/cm³, the derivative of the enthalpy by pressure is not V·(1 − αT). -/
theorem C131_refuted : ∃ (v : ℝ → ℝ → ℝ) (P : ℝ), Den v 298.15 P ∧ v 298.15 P = 0.9971 ∧
    ¬ HasDerivAt (fun p => ((stOf tripleNEA v 298.15 (p / 10)).thermo 0).H)
      (((stOf tripleNEA v 298.15 P).thermo 0).V * (1 - ((stOf tripleNEA v 298.15 P).solv 0).Alpha * 298.15)) (P * 10) := by
  obtain ⟨v, P, h, hv⟩ := den_298
  refine ⟨v, P, h, hv, fun hd => ?_⟩
  have e := hd.unique (C131_partial (stOf_holds tripleNEA v) h).1
  have hV : ((stOf tripleNEA v 298.15 P).thermo 0).V = 1 / v 298.15 P * 18.015268 * 0.1 := by simp only [Sta.thermo, stOf_holds tripleNEA v 298.15 P]
  have hA : ((stOf tripleNEA v 298.15 P).solv 0).Alpha = v 298.15 P * (thmHGK (evalAt 298.15 (v 298.15 P)) 298.15 (v 298.15 P)).dvdt := by
    simp only [Sta.solv, stOf_holds tripleNEA v 298.15 P]; rfl
  have ha := alpha_enc (tI := .rat 298.15) (dI := .rat 0.9971) (Enc.lit (x := 298.15) _ (by norm_num)) (Enc.lit (x := 0.9971) _ (by norm_num))
  have h2 := ha.lt_rat 0.00027 (by decide +kernel)
  push_cast at h2
  rw [hV, hA, hv] at e
  generalize (0.9971 * (thmHGK (evalAt 298.15 0.9971) 298.15 0.9971).dvdt : ℝ) = a at *
  norm_num at e h2
  linarith

end

end Gems

end ThermoFun

import Verif.Props.GemsFlow

/-!
Property C159 for the gems code of water: states outside the range of the equation of state are refused.
-/

namespace ThermoFun

namespace Gems

/-- The melting temperature (°C) at P in bar as the straight lines between the triple point of water (0.01 °C, 0.006117 bar), that of ice I
and III (−15 °C, 2074.1 bar) and 145 °C, 30000 bar. -/
noncomputable def meltT (P : ℝ) : ℝ :=
  if P ≤ 2074.1 then -15 + (2074.1 - P) / (2074.1 - 0.006117317) * 15.01 else -15 + (P - 2074.1) / (30000 - 2074.1) * 160

/-- Liquid water or steam above the pressure of the triple point, widened by `ε`: °C and bar. -/
def HgkRange (ε T P : ℝ) : Prop := T ≤ 2250 + ε ∧ P ≤ 30000 + ε ∧ meltT P ≤ T + ε

lemma valTP_range {T P : ℝ} (hP : 6.11732e-3 ≤ P) : (valTP T P → HgkRange 1e-6 T P) ∧ (HgkRange 0 T P → valTP T P) := by
  unfold valTP HgkRange meltT
  constructor
  · rintro ⟨h1, h2, h3, -⟩
    push Not at h1
    refine ⟨by norm_num at h1 ⊢; linarith [h1.1], by norm_num at h1 ⊢; linarith [h1.2.2.1], ?_⟩
    split
    · rename_i h
      rcases h.lt_or_eq with h' | h'
      · have := h3 (by norm_num at h' ⊢; exact h') (by norm_num at hP ⊢; linarith)
        rw [show (2074.1 : ℝ) - 0.006117317 = 2074.093882683 by norm_num]
        rw [div_mul_eq_mul_div, ← sub_nonneg]
        have e : T + 1e-6 - (-15 + (2074.1 - P) * 15.01 / 2074.093882683) = ((T + 15 + 1e-6) * 2074.093882683 - (2074.1 - P) * 15.01) / 2074.093882683 := by
          field_simp; ring
        rw [e]
        refine div_nonneg ?_ (by norm_num)
        norm_num at this hP h' ⊢
        nlinarith
      · have := h2 (by norm_num at h' ⊢; linarith)
        rw [h'] at this ⊢
        norm_num at this ⊢
        linarith
    · rename_i h
      push Not at h
      have := h2 (by norm_num at h ⊢; linarith)
      norm_num at this h ⊢
      linarith
  · rintro ⟨h1, h2, h3⟩
    have hT : -15 ≤ T := by
      split at h3
      · rename_i h
        have : 0 ≤ (2074.1 - P) / (2074.1 - 0.006117317) * 15.01 := mul_nonneg (div_nonneg (by linarith) (by norm_num)) (by norm_num)
        linarith
      · rename_i h
        push Not at h
        have : 0 ≤ (P - 2074.1) / (30000 - 2074.1) * 160 := mul_nonneg (div_nonneg (by linarith) (by norm_num)) (by norm_num)
        linarith
    refine ⟨?_, fun h => ?_, fun h h' => ?_, fun h h' => absurd (show P ≥ 0.611731677193563186622762580414e-2 by norm_num at hP ⊢; linarith) h'⟩
    · push Not
      norm_num at h1 h2 hT hP ⊢
      exact ⟨by linarith, by linarith, by linarith, by linarith⟩
    · split at h3
      · rename_i h4
        have : P = 2074.1 := le_antisymm h4 (by norm_num at h ⊢; exact h)
        subst this
        norm_num at h3 ⊢
        linarith
      · norm_num at h3 ⊢
        linarith
    · push Not at h
      rw [if_pos (by norm_num at h ⊢; linarith)] at h3
      rw [show (2074.1 : ℝ) - 0.006117317 = 2074.093882683 by norm_num, div_mul_eq_mul_div, add_zero] at h3
      have h4 : (2074.1 - P) * 15.01 ≤ (T + 15) * 2074.093882683 := by
        have : (2074.1 - P) * 15.01 / 2074.093882683 ≤ T + 15 := by linarith
        rwa [div_le_iff₀ (by norm_num)] at this
      norm_num at h4 hT h1 ⊢
      nlinarith

/-- Away from saturation the check decides. -/
lemma calculate_check {l : Lvs} {wtr : Triple} {fuel : ℕ} {T P : ℝ} (hT : T < 0 ∨ 0.01 ≤ T) (hP : 6.11732e-3 ≤ P)
    (hs : 647.067 < T + 273.15 ∨ 1e-14 ≤ |P - (|PsHGK (T + 273.15) * 10|)|) :
    (¬ valTP T P → calculate l wtr fuel T P = some (.error P)) ∧ (valTP T P → ∀ Q, calculate l wtr fuel T P ≠ some (.error Q)) := by
  have hP0 : 0 < P := by linarith [(by norm_num : (0 : ℝ) < 6.11732e-3)]
  have e1 : ¬ (T < 0.01 ∧ T ≥ 0) := by rcases hT with h | h <;> intro h' <;> linarith [h'.1, h'.2]
  have e3 : ¬ (|P| = 0 ∨ |(|P| - |if T + 273.15 ≤ 647.067e0 then PsHGK (T + 273.15) * 10 else 0|)| < 1e-14) := by
    rw [abs_of_pos hP0]
    rintro (h | h)
    · exact hP0.ne' h
    · rcases hs with hs | hs
      · rw [if_neg (by norm_num at hs ⊢; linarith), abs_zero, sub_zero, abs_of_pos hP0] at h
        norm_num at h hP; linarith
      · split at h
        · norm_num at h hs; linarith
        · rw [abs_zero, sub_zero, abs_of_pos hP0] at h
          norm_num at h hP; linarith
  unfold calculate
  dsimp only
  rw [if_neg e1, if_neg (not_lt.2 hP), if_neg e3]
  constructor
  · intro h
    rw [if_pos h]
  · intro h Q
    rw [if_neg (not_not.2 h)]
    intro h'
    split at h'
    · cases hv : l.eqn (tpset wtr) false (T + 273.15e0) (P / 10) with
      | none => rw [hv] at h'; simp at h'
      | some s => rw [hv] at h'; simp at h'
    · rename_i hc
      cases hv : hgkEqn0 (tpset wtr) fuel (if T + 273.15 ≤ 647.067e0 then PsHGK (T + 273.15) * 10 else 0) (T + 273.15e0) (P / 10) with
      | none => rw [hv] at h'; simp at h'
      | some s => rw [hv] at h'; simp at h'

/-- **C159 for the gems code.**  At a pressure from that of the triple point on and away from the saturation pressure, the code refuses every
state more than a millionth outside its range, in particular ice, and no state within.  Missing: lower pressures (`C159_gems_refuted`); the
permittivity, which has a smaller range (`C159_permittivity_refuted`). -/
theorem C159_gems_partial (l : Lvs) (wtr : Triple) (fuel : ℕ) (T P : ℝ) (hT : T < 0 ∨ 0.01 ≤ T) (hP : 6.11732e-3 ≤ P)
    (hs : 647.067 < T + 273.15 ∨ 1e-14 ≤ |P - (|PsHGK (T + 273.15) * 10|)|) :
    (¬ HgkRange 1e-6 T P → calculate l wtr fuel T P = some (.error P)) ∧ (HgkRange 0 T P → ∀ Q, calculate l wtr fuel T P ≠ some (.error Q)) := by
  obtain ⟨h1, h2⟩ := calculate_check (l := l) (wtr := wtr) (fuel := fuel) hT hP hs
  obtain ⟨h3, h4⟩ := valTP_range (T := T) hP
  exact ⟨fun h => h1 fun h' => h (h3 h'), fun h => h2 (h4 h)⟩

/-- The hypotheses at 25 °C and 100 bar (water) and at 400 °C and 1 bar (steam), both within the range, and at −16 °C and 1 bar (ice),
outside. -/
example : (1e-14 ≤ |(100 : ℝ) - (|PsHGK (25 + 273.15) * 10|)| ∧ HgkRange 0 25 100) ∧ ((647.067 : ℝ) < 400 + 273.15 ∧ HgkRange 0 400 1) ∧
    ((-16 : ℝ) < 0 ∧ ¬ HgkRange 1e-6 (-16) 1) := by
  refine ⟨⟨?_, ?_⟩, ⟨by norm_num, ?_⟩, by norm_num, ?_⟩
  · obtain ⟨_, -, -, h3, -⟩ := hyp_25 1 le_rfl
    have hps : 0 < PsHGK (25 + 273.15) := by
      unfold PsHGK
      split_ifs <;> positivity
    rw [abs_of_pos (show 0 < PsHGK (25 + 273.15) * 10 by positivity), abs_of_nonneg (by norm_num at h3 ⊢; linarith)]
    linarith
  all_goals unfold HgkRange meltT; norm_num

/-- **C159, violation.**  A pressure below 0.00611732 bar is replaced by the saturation pressure: asked for steam at 25 °C and 0.005 bar, which
is within the range (it begins at 0.001 bar), the code answers for water at 0.0317 bar, with the density of the liquid as state 0 and that
of the saturated vapour as state 1.  The same for every such pressure, also a negative one. -/
theorem C159_gems_refuted (l : Lvs) (wtr : Triple) (fuel : ℕ) :
    (∀ T P : ℝ, P < 6.11732e-3 → calculate l wtr fuel T P = calculate l wtr fuel T 0) ∧
    (1 ≤ fuel → ∃ (s : Sta) (Q : ℝ), calculate l wtr fuel 25 0.005 = some (.done s Q) ∧ 0.0316 < Q ∧ 997 < (s.solv 0).density) := by
  have h0 : ∀ T P : ℝ, P < 6.11732e-3 → calculate l wtr fuel T P = calculate l wtr fuel T 0 := by
    intro T P hP
    unfold calculate
    dsimp only
    rw [if_pos hP, if_pos (show (0 : ℝ) < 6.11732e-3 by norm_num)]
  refine ⟨h0, fun hf => ?_⟩
  rw [h0 25 0.005 (by norm_num)]
  obtain ⟨s, hs, hp, hl, hv⟩ := sat_298 fuel hf
  have e1 : (25 + 273.15 : ℝ) = 298.15 := by norm_num
  have hs' : pcorr fuel (25 + 273.15) = some s := by rw [e1]; exact hs
  refine ⟨_, _, calculate_sat (by norm_num) (by norm_num) hs', ?_, ?_⟩
  · have h' := ps_enc t298
    change Enc _ (psI K298.t) at h'
    rw [K298.ps_eq] at h'
    have := (Enc.lit (x := 0.00316) 0.00316 (by norm_num)).lt' h' (by decide +kernel)
    rw [e1]
    norm_num at this ⊢
    linarith
  · have := (Enc.lit (x := 0.997) 0.997 (by norm_num)).lt' hl (by decide +kernel)
    simp only [Sta.solv, Sta.pick, one_ne_zero, and_false, false_and, or_self, if_false, Bool.false_eq_true, and_self, or_true, if_true]
    norm_num at this ⊢
    linarith

/-- **C159, violation.**  At 25 °C and 6000 bar, within the range of the equation of state, the code answers with a permittivity of zero and Born
functions of zero, without an error: `Born92` ends at 1000 °C and 5000 bar and the check does not know. -/
theorem C159_permittivity_refuted (l : Lvs) (wtr : Triple) (fuel : ℕ) (hf : 1 ≤ fuel) : HgkRange 0 25 6000 ∧
    ∃ s : Sta, calculate l wtr fuel 25 6000 = some (.done s 6000) ∧ (s.electro 0).epsilon = 0 ∧ (s.electro 0).bornZ = 0 ∧ (s.electro 0).bornQ = 0 := by
  have hr : HgkRange 0 25 6000 := by unfold HgkRange meltT; norm_num
  refine ⟨hr, ?_⟩
  obtain ⟨s0, h1, h2, h3, -⟩ := hyp_25 fuel hf
  refine ⟨_, calculate_liquid (T := 25) (P := 6000) (by norm_num) (by norm_num) (by norm_num)
    ((valTP_range (by norm_num)).2 hr) h1 (by norm_num at h2 ⊢; linarith) (by norm_num at h3 ⊢; linarith), ?_⟩
  have hb : ∀ D b a x, born92 (25 + 273.15) (6000 / 10 * 1.0e1) D b a x = ⟨0, 0, 0, 0, 0⟩ := by
    intro D b a x
    unfold born92
    rw [if_pos (Or.inr (by norm_num))]
  simp only [Sta.electro, Sta.pick, one_ne_zero, and_false, false_and, or_self, if_false, Bool.false_eq_true, and_self, or_true, if_true,
    propsAt, dimHGK, triple, hb]
  norm_num

end Gems

end ThermoFun

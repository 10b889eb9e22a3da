import Verif.Lemmas.GasT
import Verif.Props.Gas

/-!
Residual enthalpy, entropy and heat capacity of the gas models.
-/

namespace ThermoFun.Gas

open Topology Filter

local notation "uPR" => (1 + Real.sqrt 2)
local notation "wPR" => (1 - Real.sqrt 2)

/-! ### Specification -/

/-- The residual entropy is minus the derivative of the residual Gibbs energy, and H = G + TS. -/
def EntropyOK (fug : ℝ → Option Fug) (T : ℝ) : Prop :=
  ∃ f : ℝ → Fug, ∃ h s : ℝ, (∀ᶠ t in 𝓝 T, fug t = some (f t)) ∧ (f T).h = some h ∧ (f T).s = some s ∧
    HasDerivAt (fun t => (f t).g) (-s) T ∧ h = (f T).g + T * s

/-- The residual heat capacity is the derivative of the residual enthalpy. -/
def HeatOK (fug : ℝ → Option Fug) (T : ℝ) : Prop :=
  ∃ f : ℝ → Fug, ∃ h : ℝ → ℝ, (∀ᶠ t in 𝓝 T, fug t = some (f t) ∧ (f t).h = some (h t)) ∧ HasDerivAt h (f T).cp T

/-! ### The families of parameters -/

lemma srk_b {Tc Pc omg : ℝ} : ∀ t, (srkAB t Tc Pc omg).b = 0.08664 * Rgas * Tc / Pc := fun _ => rfl
lemma pr78_b {Tc Pc omg : ℝ} : ∀ t, (pr78AB t Tc Pc omg).b = 0.0777960739 * Rgas * Tc / Pc := fun _ => rfl
lemma srk_a {Tc Pc omg : ℝ} (hPc : 0 < Pc) (t : ℝ) : 0 ≤ (srkAB t Tc Pc omg).a := by unfold srkAB; positivity
lemma pr78_a {Tc Pc omg : ℝ} (hPc : 0 < Pc) (t : ℝ) : 0 ≤ (pr78AB t Tc Pc omg).a := by unfold pr78AB; positivity

/-- Both statements for a Peng-Robinson family with the right factor. -/
lemma pr_both {c T P Tc Pc b : ℝ} {p : ℝ → AB} (hT : 0 < T) (hP : 0 < P) (hTc : 0 < Tc) (hb : 0 < b) (hpb : ∀ t, (p t).b = b)
    (hpa : ∀ t, 0 ≤ (p t).a) (hda : HasDerivAt (fun t => (p t).a) (p T).da T) (hd2 : HasDerivAt (fun t => (p t).da) (p T).d2a T)
    (h1 : T ≠ Tc)
    (hk : ∀ᶠ t in 𝓝 T, (p t).a * (1 + (Real.sqrt ((p t).a / (c * Rgas ^ 2 * Tc ^ 2 / Pc)) - 1) / (1 - Real.sqrt (t / Tc))
      * Real.sqrt (t / Tc) / Real.sqrt ((p t).a / (c * Rgas ^ 2 * Tc ^ 2 / Pc))) = (p t).a - t * (p t).da)
    (h : PrOne (p T).a b T P) :
    EntropyOK (fun t => prPure c t P Tc Pc (p t)) T ∧ HeatOK (fun t => prPure c t P Tc Pc (p t)) T := by
  obtain ⟨f, ev, hd⟩ := pr_family (c := c) (Tc := Tc) (Pc := Pc) hT hP hb hpb hpa hda h
  have hne : ∀ᶠ t in 𝓝 T, Real.sqrt (t / Tc) ≠ 1 := by
    have : ∀ᶠ t in 𝓝 T, t ≠ Tc := isOpen_ne.mem_nhds h1
    refine this.mono fun t ht h' => ht ?_
    rw [Real.sqrt_eq_one] at h'
    field_simp at h'; exact h'
  have hval : ∀ᶠ t in 𝓝 T, (f t).h = some (hres Rgas uPR wPR P t (p t).a (p t).da b (prZ (p t).a b t P * Rgas * t / P)) ∧
      (f t).s = some ((hres Rgas uPR wPR P t (p t).a (p t).da b (prZ (p t).a b t P * Rgas * t / P) - (f t).g) / t) := by
    filter_upwards [ev, hne, hk] with t ht ht1 htk
    obtain ⟨t0, -, -, e⟩ := ht
    have hh := prProps_h (c := c) (P := P) (Pc := Pc) (z := prZ (p t).a b t P)
      (l := prLnf (Ax (p t).a t P) (Bx b t P) (prZ (p t).a b t P)) (p := p t) ht1
    rw [← e, prH_hres t0 hP (by rw [hpb]; exact hb) htk, hpb] at hh
    exact hh
  have hg : (f T).g = gres Rgas uPR wPR P T (p T).a b (prZ (p T).a b T P * Rgas * T / P) := by
    obtain ⟨t0, -, -, e⟩ := ev.self_of_nhds
    have := prProps_g (c := c) (Tc := Tc) (Pc := Pc) (z := prZ (p T).a b T P)
      (l := prLnf (Ax (p T).a T P) (Bx b T P) (prZ (p T).a b T P)) (p := p T) hT hP (by rw [hpb]; exact hb)
    rw [← e, hpb] at this
    exact this
  have hcp : (f T).cp = cres Rgas uPR wPR T (p T).a (p T).da (p T).d2a b (prZ (p T).a b T P * Rgas * T / P) := by
    obtain ⟨t0, -, -, e⟩ := ev.self_of_nhds
    have := prProps_cp (c := c) (Tc := Tc) (Pc := Pc) (z := prZ (p T).a b T P)
      (l := prLnf (Ax (p T).a T P) (Bx b T P) (prZ (p T).a b T P)) (p := p T) hT hP
    rw [← e, hpb] at this
    exact this
  constructor
  · refine ⟨f, _, _, ev.mono fun t ht => ht.2.2.1, hval.self_of_nhds.1, hval.self_of_nhds.2, hd.congr_deriv ?_, ?_⟩
    · rw [hg]; ring
    · field_simp; ring
  · refine ⟨f, _, (ev.and hval).mono fun t ht => ⟨ht.1.2.2.1, ht.2.1⟩, ?_⟩
    rw [hcp]
    exact pr_hres_T (A := fun t => (p t).a) (A' := fun t => (p t).da) hT hP hb hpa hda hd2 h

lemma srk_both {T P b : ℝ} {p : ℝ → AB} (hT : 0 < T) (hP : 0 < P) (hb : 0 < b) (hpb : ∀ t, (p t).b = b)
    (hpa : ∀ t, 0 ≤ (p t).a) (hda : HasDerivAt (fun t => (p t).a) (p T).da T) (hd2 : HasDerivAt (fun t => (p t).da) (p T).d2a T)
    (h : SrkOne (p T).a b T P) :
    EntropyOK (fun t => srkPure t P (p t)) T ∧ HeatOK (fun t => srkPure t P (p t)) T := by
  obtain ⟨f, ev, hd⟩ := srk_family hT hP hb hpb hpa hda h
  have hval : ∀ᶠ t in 𝓝 T, (f t).h = some (hres Rgas 1 0 P t (p t).a (p t).da b (srkZ (p t).a b t P * Rgas * t / P)) := by
    filter_upwards [ev] with t ht
    obtain ⟨t0, h1, -, e⟩ := ht
    have hh := srkProps_h (z := srkZ (p t).a b t P)
      (l := srkLnf (Ax (p t).a t P) (Bx b t P) (srkZ (p t).a b t P)) (p := p t) t0 hP (by rw [hpb]; exact hb)
      (by rw [hpb]; exact srk_rootOf t0 hP (hpa t) hb h1)
    rw [← e, hpb] at hh
    exact hh
  have r := srk_rootOf hT hP (hpa T) hb h
  obtain ⟨-, -, -, e⟩ := ev.self_of_nhds
  have hg : (f T).g = gres Rgas 1 0 P T (p T).a b (srkZ (p T).a b T P * Rgas * T / P) := by
    have := srkProps_g (z := srkZ (p T).a b T P)
      (l := srkLnf (Ax (p T).a T P) (Bx b T P) (srkZ (p T).a b T P)) (p := p T) hT hP (by rw [hpb]; exact hb) (by rw [hpb]; exact r)
    rw [← e, hpb] at this
    exact this
  have hs : (f T).s = some ((hres Rgas 1 0 P T (p T).a (p T).da b (srkZ (p T).a b T P * Rgas * T / P) - (f T).g) / T) := by
    have := srkProps_s (z := srkZ (p T).a b T P)
      (l := srkLnf (Ax (p T).a T P) (Bx b T P) (srkZ (p T).a b T P)) (p := p T) hT hP (by rw [hpb]; exact r)
    rw [← e, hpb] at this
    rw [this, hg]
    unfold hres gres
    congr 1
    field_simp
    ring
  have hcp : (f T).cp = cres Rgas 1 0 T (p T).a (p T).da (p T).d2a b (srkZ (p T).a b T P * Rgas * T / P) := by
    have := srkProps_cp (z := srkZ (p T).a b T P)
      (l := srkLnf (Ax (p T).a T P) (Bx b T P) (srkZ (p T).a b T P)) (p := p T) hT hP (by rw [hpb]; exact r)
    rw [← e, hpb] at this
    exact this
  constructor
  · refine ⟨f, _, _, ev.mono fun t ht => ht.2.2.1, hval.self_of_nhds, hs, hd.congr_deriv ?_, ?_⟩
    · rw [hg]; ring
    · field_simp; ring
  · refine ⟨f, _, (ev.and hval).mono fun t ht => ⟨ht.1.2.2.1, ht.2⟩, ?_⟩
    rw [hcp]
    exact srk_hres_T (A := fun t => (p t).a) (A' := fun t => (p t).da) hT hP hb hpa hda hd2 h

/-! ### C102 and C103 for SRK and PR78 -/

lemma srk_ok {T P : ℝ} {k : Nat → ℝ} (hT : 0 < T) (hP : 0 < P) (hTc : 0 < k 0) (hPc : 0 < k 1)
    (h : SrkSingle (srkAB T (k 0) (k 1) (k 2)).a (srkAB T (k 0) (k 1) (k 2)).b T P) :
    EntropyOK (fun t => fugacityPT .SRK t P k) T ∧ HeatOK (fun t => fugacityPT .SRK t P k) T := by
  have hR := Rpos
  exact srk_both (p := fun t => srkAB t (k 0) (k 1) (k 2)) hT hP (by positivity) srk_b (srk_a hPc) (srk_da hT hTc).1 (srk_da hT hTc).2 h.one

/-- **C102** (SRK): where the cubic has one real root, the residual entropy is minus the temperature derivative of the residual Gibbs energy
and H = G + TS.
Missing from C102: the region of three real roots; for the Peng-Robinson models see below. -/
theorem C102_srk_partial (T P : ℝ) (k : Nat → ℝ) (hT : 0 < T) (hP : 0 < P) (hTc : 0 < k 0) (hPc : 0 < k 1)
    (h : SrkSingle (srkAB T (k 0) (k 1) (k 2)).a (srkAB T (k 0) (k 1) (k 2)).b T P) :
    EntropyOK (fun t => fugacityPT .SRK t P k) T := (srk_ok hT hP hTc hPc h).1

/-- **C103** (SRK): under the same conditions the residual heat capacity is the temperature derivative of the residual enthalpy. -/
theorem C103_srk_partial (T P : ℝ) (k : Nat → ℝ) (hT : 0 < T) (hP : 0 < P) (hTc : 0 < k 0) (hPc : 0 < k 1)
    (h : SrkSingle (srkAB T (k 0) (k 1) (k 2)).a (srkAB T (k 0) (k 1) (k 2)).b T P) :
    HeatOK (fun t => fugacityPT .SRK t P k) T := (srk_ok hT hP hTc hPc h).2

lemma pr78_ok {T P : ℝ} {k : Nat → ℝ} (hT : 0 < T) (hP : 0 < P) (hTc : 0 < k 0) (hPc : 0 < k 1) (h1 : T ≠ k 0)
    (hpos : 0 < 1 + pr78k (k 2) * (1 - Real.sqrt (T / k 0)))
    (h : PrSingle (pr78AB T (k 0) (k 1) (k 2)).a (pr78AB T (k 0) (k 1) (k 2)).b T P) :
    EntropyOK (fun t => fugacityPT .PR78 t P k) T ∧ HeatOK (fun t => fugacityPT .PR78 t P k) T := by
  have hR := Rpos
  refine pr_both (p := fun t => pr78AB t (k 0) (k 1) (k 2)) hT hP hTc (by positivity) pr78_b (pr78_a hPc) (pr78_da hT hTc).1 (pr78_da hT hTc).2
    h1 ?_ h.one
  have c1 : ∀ᶠ t in 𝓝 T, t ≠ k 0 := isOpen_ne.mem_nhds h1
  have c2 : ∀ᶠ t in 𝓝 T, 0 < 1 + pr78k (k 2) * (1 - Real.sqrt (t / k 0)) := by
    refine ContinuousAt.eventually_lt continuousAt_const ?_ hpos
    fun_prop
  filter_upwards [c1, c2, lt_mem_nhds hT] with t h1 h2 h3
  refine factor_ok (m := pr78k (k 2)) h3 hTc hPc (by norm_num) rfl rfl h2 ?_
  intro h'
  rw [Real.sqrt_eq_one] at h'
  field_simp at h'
  exact h1 h'

/-- **C102** (PR78): the same for T ≠ Tc, provided that 1 + k(1 - √(T/Tc)) is positive, k being the function of the acentric factor in the
source. -/
theorem C102_pr78_partial (T P : ℝ) (k : Nat → ℝ) (hT : 0 < T) (hP : 0 < P) (hTc : 0 < k 0) (hPc : 0 < k 1) (h1 : T ≠ k 0)
    (hpos : 0 < 1 + pr78k (k 2) * (1 - Real.sqrt (T / k 0)))
    (h : PrSingle (pr78AB T (k 0) (k 1) (k 2)).a (pr78AB T (k 0) (k 1) (k 2)).b T P) :
    EntropyOK (fun t => fugacityPT .PR78 t P k) T := (pr78_ok hT hP hTc hPc h1 hpos h).1

/-- **C103** (PR78): the same. -/
theorem C103_pr78_partial (T P : ℝ) (k : Nat → ℝ) (hT : 0 < T) (hP : 0 < P) (hTc : 0 < k 0) (hPc : 0 < k 1) (h1 : T ≠ k 0)
    (hpos : 0 < 1 + pr78k (k 2) * (1 - Real.sqrt (T / k 0)))
    (h : PrSingle (pr78AB T (k 0) (k 1) (k 2)).a (pr78AB T (k 0) (k 1) (k 2)).b T P) :
    HeatOK (fun t => fugacityPT .PR78 t P k) T := (pr78_ok hT hP hTc hPc h1 hpos h).2

/-! ### PRSV -/

/-- The polynomial of the acentric factor in PRSV. -/
noncomputable def k0S (omg : ℝ) : ℝ := 0.378893 + 1.4897153 * omg - 0.17131848 * omg ^ 2 + 0.0196554 * omg ^ 3

lemma prsv_soave {T Tc Pc omg k1 k2 k3 : ℝ} (h : T ≥ Tc ∨ (k1 = 0 ∧ k2 = 0)) :
    (prsvAB T Tc Pc omg k1 k2 k3).a = (1 + k0S omg * (1 - Real.sqrt (T / Tc))) ^ 2 * (0.457235 * Rgas ^ 2 * Tc ^ 2 / Pc) ∧
    (prsvAB T Tc Pc omg k1 k2 k3).da = 2 * (0.457235 * Rgas ^ 2 * Tc ^ 2 / Pc)
      * ((1 + k0S omg * (1 - Real.sqrt (T / Tc))) * (-0.5 * k0S omg / (Real.sqrt (T / Tc) * Tc))) ∧
    (prsvAB T Tc Pc omg k1 k2 k3).d2a = 2 * (0.457235 * Rgas ^ 2 * Tc ^ 2 / Pc)
      * ((-0.5 * k0S omg / (Real.sqrt (T / Tc) * Tc)) * (-0.5 * k0S omg / (Real.sqrt (T / Tc) * Tc))
        + (1 + k0S omg * (1 - Real.sqrt (T / Tc))) * (0.25 * k0S omg / ((T / Tc) ^ (1.5 : ℝ) * Tc ^ 2))) := by
  have e1 : (if T ≥ Tc then (0 : ℝ) else k1) = 0 := by
    rcases h with h | h
    · rw [if_pos h]
    · rw [h.1, ite_self]
  have e2 : (if T ≥ Tc then (0 : ℝ) else k2) = 0 := by
    rcases h with h | h
    · rw [if_pos h]
    · rw [h.2, ite_self]
  unfold prsvAB k0S
  dsimp only
  rw [e1, e2]
  generalize 0.378893 + 1.4897153 * omg - 0.17131848 * omg ^ 2 + 0.0196554 * omg ^ 3 = k0
  generalize 0.457235 * Rgas ^ 2 * Tc ^ 2 / Pc = ac
  refine ⟨by ring, by ring, by ring⟩

lemma prsv_b {Tc Pc omg k1 k2 k3 : ℝ} : ∀ t, (prsvAB t Tc Pc omg k1 k2 k3).b = 0.077796 * Rgas * Tc / Pc := fun _ => rfl
lemma prsv_a {Tc Pc omg k1 k2 k3 : ℝ} (hPc : 0 < Pc) (t : ℝ) : 0 ≤ (prsvAB t Tc Pc omg k1 k2 k3).a := by
  unfold prsvAB
  dsimp only
  positivity

lemma prsv_ok {T P : ℝ} {k : Nat → ℝ} (hT : 0 < T) (hP : 0 < P) (hTc : 0 < k 0) (hPc : 0 < k 1) (h1 : T ≠ k 0)
    (hk : k 0 < T ∨ (k 3 = 0 ∧ k 4 = 0)) (hpos : 0 < 1 + k0S (k 2) * (1 - Real.sqrt (T / k 0)))
    (h : PrSingle (prsvAB T (k 0) (k 1) (k 2) (k 3) (k 4) (k 5)).a (prsvAB T (k 0) (k 1) (k 2) (k 3) (k 4) (k 5)).b T P) :
    EntropyOK (fun t => fugacityPT .PRSV t P k) T ∧ HeatOK (fun t => fugacityPT .PRSV t P k) T := by
  have hR := Rpos
  have hev : ∀ᶠ t in 𝓝 T, t ≥ k 0 ∨ (k 3 = 0 ∧ k 4 = 0) := by
    rcases hk with hk | hk
    · exact (lt_mem_nhds hk).mono fun t ht => Or.inl ht.le
    · exact Eventually.of_forall fun _ => Or.inr hk
  have hs := soave (m := k0S (k 2)) (ac := 0.457235 * Rgas ^ 2 * k 0 ^ 2 / k 1) hT hTc
  have hself := prsv_soave (Pc := k 1) (omg := k 2) (k3 := k 5) hev.self_of_nhds
  refine pr_both (p := fun t => prsvAB t (k 0) (k 1) (k 2) (k 3) (k 4) (k 5)) hT hP hTc (by positivity) prsv_b (prsv_a hPc) ?_ ?_
    h1 ?_ h.one
  · rw [hself.2.1]
    exact hs.1.congr_of_eventuallyEq (hev.mono fun t ht => (prsv_soave ht).1)
  · rw [hself.2.2]
    exact hs.2.congr_of_eventuallyEq (hev.mono fun t ht => (prsv_soave ht).2.1)
  have c1 : ∀ᶠ t in 𝓝 T, t ≠ k 0 := isOpen_ne.mem_nhds h1
  have c2 : ∀ᶠ t in 𝓝 T, 0 < 1 + k0S (k 2) * (1 - Real.sqrt (t / k 0)) := by
    refine ContinuousAt.eventually_lt continuousAt_const ?_ hpos
    fun_prop
  filter_upwards [c1, c2, lt_mem_nhds hT, hev] with t h1 h2 h3 h4
  refine factor_ok (m := k0S (k 2)) h3 hTc hPc (by norm_num) (prsv_soave h4).1 (prsv_soave h4).2.1 h2 ?_
  intro h'
  rw [Real.sqrt_eq_one] at h'
  field_simp at h'
  exact h1 h'

/-- **C102** (PRSV): the same above the critical temperature, and below it if k1 and k2 are zero. -/
theorem C102_prsv_partial (T P : ℝ) (k : Nat → ℝ) (hT : 0 < T) (hP : 0 < P) (hTc : 0 < k 0) (hPc : 0 < k 1) (h1 : T ≠ k 0)
    (hk : k 0 < T ∨ (k 3 = 0 ∧ k 4 = 0)) (hpos : 0 < 1 + k0S (k 2) * (1 - Real.sqrt (T / k 0)))
    (h : PrSingle (prsvAB T (k 0) (k 1) (k 2) (k 3) (k 4) (k 5)).a (prsvAB T (k 0) (k 1) (k 2) (k 3) (k 4) (k 5)).b T P) :
    EntropyOK (fun t => fugacityPT .PRSV t P k) T := (prsv_ok hT hP hTc hPc h1 hk hpos h).1

/-- **C103** (PRSV): the same. -/
theorem C103_prsv_partial (T P : ℝ) (k : Nat → ℝ) (hT : 0 < T) (hP : 0 < P) (hTc : 0 < k 0) (hPc : 0 < k 1) (h1 : T ≠ k 0)
    (hk : k 0 < T ∨ (k 3 = 0 ∧ k 4 = 0)) (hpos : 0 < 1 + k0S (k 2) * (1 - Real.sqrt (T / k 0)))
    (h : PrSingle (prsvAB T (k 0) (k 1) (k 2) (k 3) (k 4) (k 5)).a (prsvAB T (k 0) (k 1) (k 2) (k 3) (k 4) (k 5)).b T P) :
    HeatOK (fun t => fugacityPT .PRSV t P k) T := (prsv_ok hT hP hTc hPc h1 hk hpos h).2

/-! ### Concrete states -/

/-- Critical constants like those of carbon dioxide, without PRSV coefficients. -/
noncomputable def exCrit : Nat → ℝ := fun i => [300, 74, 0.225, 0, 0, 0, 0].getD i 0

lemma ex0 : exCrit 0 = 300 := rfl
lemma ex1 : exCrit 1 = 74 := rfl
lemma ex2 : exCrit 2 = 0.225 := rfl

lemma sqrt_ex (s : ℝ) (hs : 0 ≤ s) {x : ℝ} (h : x = s ^ 2) : Real.sqrt x = s := by rw [h, Real.sqrt_sq hs]

/-- A, B from the form of the parameters. -/
lemma AB_num {c cb q T P Tc Pc : ℝ} (hT : 0 < T) (hTc : 0 < Tc) (hPc : 0 < Pc) :
    q ^ 2 * (c * Rgas ^ 2 * Tc ^ 2 / Pc) * P / (Rgas * T) ^ 2 = q ^ 2 * c * (Tc / T) ^ 2 * (P / Pc) ∧
    cb * Rgas * Tc / Pc * P / (Rgas * T) = cb * (Tc / T) * (P / Pc) := by
  have hR := Rpos
  constructor <;> field_simp

lemma pr78k_le {omg : ℝ} (h : omg ≤ 0.491) : pr78k omg = 0.37464 + 1.54226 * omg - 0.26992 * omg ^ 2 := by
  unfold pr78k
  rw [if_pos h]

/-- 432 K is 1.44 Tc. -/
lemma exCrit_srk : SrkSingle (srkAB 432 (exCrit 0) (exCrit 1) (exCrit 2)).a (srkAB 432 (exCrit 0) (exCrit 1) (exCrit 2)).b 432 740 := by
  unfold SrkSingle srkAB
  dsimp only
  simp only [ex0, ex1, ex2]
  rw [sqrt_ex 1.2 (by norm_num) (by norm_num : (432 / 300 : ℝ) = 1.2 ^ 2)]
  obtain ⟨e1, e2⟩ := AB_num (c := 0.42747) (cb := 0.08664) (q := 1 + (0.48 + 1.574 * 0.225 - 0.176 * 0.225 ^ 2) * (1 - 1.2))
    (T := 432) (P := 740) (Tc := 300) (Pc := 74) (by norm_num) (by norm_num) (by norm_num)
  rw [e1, e2]
  unfold discr cubic
  norm_num

lemma exCrit_pr78 : PrSingle (pr78AB 432 (exCrit 0) (exCrit 1) (exCrit 2)).a (pr78AB 432 (exCrit 0) (exCrit 1) (exCrit 2)).b 432 740 := by
  unfold PrSingle pr78AB
  dsimp only
  rw [pr78k_le (by rw [ex2]; norm_num)]
  simp only [ex0, ex1, ex2]
  rw [sqrt_ex 1.2 (by norm_num) (by norm_num : (432 / 300 : ℝ) = 1.2 ^ 2)]
  obtain ⟨e1, e2⟩ := AB_num (c := 0.457235529) (cb := 0.0777960739) (q := 1 + (0.37464 + 1.54226 * 0.225 - 0.26992 * 0.225 ^ 2) * (1 - 1.2))
    (T := 432) (P := 740) (Tc := 300) (Pc := 74) (by norm_num) (by norm_num) (by norm_num)
  rw [e1, e2]
  unfold discr cubic
  norm_num

lemma exCrit_prsv : PrSingle (prsvAB 432 (exCrit 0) (exCrit 1) (exCrit 2) (exCrit 3) (exCrit 4) (exCrit 5)).a
    (prsvAB 432 (exCrit 0) (exCrit 1) (exCrit 2) (exCrit 3) (exCrit 4) (exCrit 5)).b 432 740 := by
  rw [(prsv_soave (k1 := exCrit 3) (k2 := exCrit 4) (Or.inr ⟨rfl, rfl⟩)).1, prsv_b]
  unfold PrSingle k0S
  dsimp only
  simp only [ex0, ex1, ex2]
  rw [sqrt_ex 1.2 (by norm_num) (by norm_num : (432 / 300 : ℝ) = 1.2 ^ 2)]
  obtain ⟨e1, e2⟩ := AB_num (c := 0.457235) (cb := 0.077796)
    (q := 1 + (0.378893 + 1.4897153 * 0.225 - 0.17131848 * 0.225 ^ 2 + 0.0196554 * 0.225 ^ 3) * (1 - 1.2))
    (T := 432) (P := 740) (Tc := 300) (Pc := 74) (by norm_num) (by norm_num) (by norm_num)
  rw [e1, e2]
  unfold discr cubic
  norm_num

example : EntropyOK (fun t => fugacityPT .SRK t 740 exCrit) 432 ∧ HeatOK (fun t => fugacityPT .SRK t 740 exCrit) 432 :=
  ⟨C102_srk_partial 432 740 exCrit (by norm_num) (by norm_num) (by norm_num [ex0]) (by norm_num [ex1]) exCrit_srk,
   C103_srk_partial 432 740 exCrit (by norm_num) (by norm_num) (by norm_num [ex0]) (by norm_num [ex1]) exCrit_srk⟩

lemma exCrit_pos78 : 0 < 1 + pr78k (exCrit 2) * (1 - Real.sqrt (432 / exCrit 0)) := by
  rw [pr78k_le (by rw [ex2]; norm_num)]
  simp only [ex0, ex2]
  rw [sqrt_ex 1.2 (by norm_num) (by norm_num : (432 / 300 : ℝ) = 1.2 ^ 2)]
  norm_num

lemma exCrit_posSV : 0 < 1 + k0S (exCrit 2) * (1 - Real.sqrt (432 / exCrit 0)) := by
  unfold k0S
  simp only [ex0, ex2]
  rw [sqrt_ex 1.2 (by norm_num) (by norm_num : (432 / 300 : ℝ) = 1.2 ^ 2)]
  norm_num

example : EntropyOK (fun t => fugacityPT .PR78 t 740 exCrit) 432 ∧ HeatOK (fun t => fugacityPT .PR78 t 740 exCrit) 432 :=
  ⟨C102_pr78_partial 432 740 exCrit (by norm_num) (by norm_num) (by norm_num [ex0]) (by norm_num [ex1]) (by norm_num [ex0])
    exCrit_pos78 exCrit_pr78,
   C103_pr78_partial 432 740 exCrit (by norm_num) (by norm_num) (by norm_num [ex0]) (by norm_num [ex1]) (by norm_num [ex0])
    exCrit_pos78 exCrit_pr78⟩

example : EntropyOK (fun t => fugacityPT .PRSV t 740 exCrit) 432 ∧ HeatOK (fun t => fugacityPT .PRSV t 740 exCrit) 432 :=
  ⟨C102_prsv_partial 432 740 exCrit (by norm_num) (by norm_num) (by norm_num [ex0]) (by norm_num [ex1]) (by norm_num [ex0])
    (Or.inr ⟨rfl, rfl⟩) exCrit_posSV exCrit_prsv,
   C103_prsv_partial 432 740 exCrit (by norm_num) (by norm_num) (by norm_num [ex0]) (by norm_num [ex1]) (by norm_num [ex0])
    (Or.inr ⟨rfl, rfl⟩) exCrit_posSV exCrit_prsv⟩

/-! ### Violations -/

/-- The number computed for H, whatever the derivative of a is. -/
lemma prH_hres' {c T P Tc Pc z : ℝ} {p : AB} (hT : 0 < T) (hP : 0 < P) (hb : 0 < p.b) {x : ℝ}
    (hx : p.a * (1 + (Real.sqrt (p.a / (c * Rgas ^ 2 * Tc ^ 2 / Pc)) - 1) / (1 - Real.sqrt (T / Tc)) * Real.sqrt (T / Tc)
      / Real.sqrt (p.a / (c * Rgas ^ 2 * Tc ^ 2 / Pc))) = p.a - T * x) :
    prH c T Tc Pc P p z = hres Rgas uPR wPR P T p.a x p.b (z * Rgas * T / P) :=
  prH_hres (p := { p with da := x }) hT hP hb hx

lemma hres_inj {R P T a a' x b v u w : ℝ} (hT : 0 < T) (hb : 0 < b) (huw : w < u) (h2 : 0 < v + w * b)
    (h : hres R u w P T a a' b v = hres R u w P T a x b v) : a' = x := by
  have hL : 0 < Real.log ((v + u * b) / (v + w * b)) := by
    apply Real.log_pos
    rw [lt_div_iff₀ h2]
    nlinarith
  have h3 : 0 < b * (u - w) := mul_pos hb (by linarith)
  unfold hres at h
  have h4 : (a - T * a') / (b * (u - w)) * Real.log ((v + u * b) / (v + w * b)) = (a - T * x) / (b * (u - w)) * Real.log ((v + u * b) / (v + w * b)) := by
    linarith
  have h5 := mul_right_cancel₀ hL.ne' h4
  rw [div_left_inj' h3.ne'] at h5
  exact mul_left_cancel₀ hT.ne' (by linarith)

/-- The entropy and the enthalpy are wrong: the model gives numbers, but S is not minus the derivative of G and H/T² not minus the derivative of
G/T. -/
def EntropyWrong (fug : ℝ → Option Fug) (T : ℝ) : Prop :=
  ∃ f : ℝ → Fug, ∃ h s g' : ℝ, (∀ᶠ t in 𝓝 T, fug t = some (f t)) ∧ (f T).h = some h ∧ (f T).s = some s ∧
    HasDerivAt (fun t => (f t).g) g' T ∧ s ≠ -g' ∧ h ≠ (f T).g - T * g'

lemma pr_wrong {c T P Tc Pc b x : ℝ} {p : ℝ → AB} (hT : 0 < T) (hP : 0 < P) (hTc : 0 < Tc) (hb : 0 < b) (hpb : ∀ t, (p t).b = b)
    (hpa : ∀ t, 0 ≤ (p t).a) {a' : ℝ} (hda : HasDerivAt (fun t => (p t).a) a' T) (h1 : T ≠ Tc)
    (hx : (p T).a * (1 + (Real.sqrt ((p T).a / (c * Rgas ^ 2 * Tc ^ 2 / Pc)) - 1) / (1 - Real.sqrt (T / Tc)) * Real.sqrt (T / Tc)
      / Real.sqrt ((p T).a / (c * Rgas ^ 2 * Tc ^ 2 / Pc))) = (p T).a - T * x) (hne : a' ≠ x)
    (h : PrOne (p T).a b T P) :
    EntropyWrong (fun t => prPure c t P Tc Pc (p t)) T := by
  obtain ⟨f, ev, hd⟩ := pr_family (c := c) (Tc := Tc) (Pc := Pc) hT hP hb hpb hpa hda h
  have hT1 : Real.sqrt (T / Tc) ≠ 1 := by
    intro h'
    rw [Real.sqrt_eq_one] at h'
    field_simp at h'; exact h1 h'
  obtain ⟨-, -, -, e⟩ := ev.self_of_nhds
  have hh := prProps_h (c := c) (P := P) (Pc := Pc) (z := prZ (p T).a b T P)
      (l := prLnf (Ax (p T).a T P) (Bx b T P) (prZ (p T).a b T P)) (p := p T) hT1
  rw [← e, prH_hres' hT hP (by rw [hpb]; exact hb) hx, hpb] at hh
  have hg := prProps_g (c := c) (Tc := Tc) (Pc := Pc) (z := prZ (p T).a b T P)
      (l := prLnf (Ax (p T).a T P) (Bx b T P) (prZ (p T).a b T P)) (p := p T) hT hP (by rw [hpb]; exact hb)
  rw [← e, hpb] at hg
  have r := pr_rootOf hT hP (hpa T) hb h
  have key : hres Rgas uPR wPR P T (p T).a x b (prZ (p T).a b T P * Rgas * T / P)
      ≠ hres Rgas uPR wPR P T (p T).a a' b (prZ (p T).a b T P * Rgas * T / P) := by
    intro h'
    exact hne (hres_inj hT hb (by linarith [sqrt2_pos]) r.vW h').symm
  refine ⟨f, _, _, _, ev.mono fun t ht => ht.2.2.1, hh.1, hh.2, hd, ?_, ?_⟩
  · intro h'
    rw [hg] at h'
    apply key
    field_simp at h'
    linarith
  · intro h'
    rw [hg] at h'
    apply key
    field_simp at h'
    linarith

/-- **C102** is violated at the critical temperature: H and S of PR78 (and PRSV) are NaN for T = Tc, at every pressure where the volume and the
fugacity coefficient are numbers. -/
theorem C102_critical_refuted :
    (∀ c P Tc Pc : ℝ, ∀ p : AB, 0 < Tc → ∀ f, prPure c Tc P Tc Pc p = some f → f.h = none ∧ f.s = none) ∧
    (∃ f, fugacityPT .PR78 100 500 (fun i => [100, 50, 0.3, 0, 0, 0, 0].getD i 0) = some f ∧ f.h = none ∧ f.s = none) := by
  have key : ∀ c P Tc Pc : ℝ, ∀ p : AB, 0 < Tc → ∀ f, prPure c Tc P Tc Pc p = some f → f.h = none ∧ f.s = none := by
    intro c P Tc Pc p hTc f hf
    unfold prPure at hf
    rw [Option.map_eq_some_iff] at hf
    obtain ⟨r, -, rfl⟩ := hf
    unfold prProps
    dsimp only
    rw [div_self hTc.ne', Real.sqrt_one, if_pos rfl, if_pos rfl]
    exact ⟨rfl, rfl⟩
  refine ⟨key, ?_⟩
  have hs : PrSingle (pr78AB 100 100 50 0.3).a (pr78AB 100 100 50 0.3).b 100 500 := by
    unfold PrSingle pr78AB
    dsimp only
    rw [div_self (by norm_num), Real.sqrt_one, sub_self, mul_zero, add_zero]
    obtain ⟨e1, e2⟩ := AB_num (c := 0.457235529) (cb := 0.0777960739) (q := 1)
      (T := 100) (P := 500) (Tc := 100) (Pc := 50) (by norm_num) (by norm_num) (by norm_num)
    rw [e1, e2]
    unfold discr cubic
    norm_num
  have hR := Rpos
  obtain ⟨f, hf, -⟩ := C100_pr_partial 0.457235529 100 500 100 50 (pr78AB 100 100 50 0.3) (by norm_num) (by norm_num) (pr78_a (by norm_num) _)
    (by rw [pr78_b]; positivity) hs
  exact ⟨f, hf, key _ _ _ _ _ (by norm_num) f hf⟩

/-- **C102** is violated at high temperatures: where 1 + k(1 - √(T/Tc)) is negative, `sqrt(alph)` has the wrong sign for the formula of H.  The
witness has Tc = 100, ω = 0.3 and T = 2500. -/
theorem C102_pr78_sign_refuted : EntropyWrong (fun t => fugacityPT .PR78 t 50 (fun i => [100, 50, 0.3, 0, 0, 0, 0].getD i 0)) 2500 := by
  have hR := Rpos
  have hk : pr78k 0.3 = 0.8130252 := by rw [pr78k_le (by norm_num)]; norm_num
  have hsq : Real.sqrt (2500 / 100 : ℝ) = 5 := sqrt_ex 5 (by norm_num) (by norm_num)
  have ha : (pr78AB 2500 100 50 0.3).a = 2.2521008 ^ 2 * (0.457235529 * Rgas ^ 2 * 100 ^ 2 / 50) := by
    unfold pr78AB
    dsimp only
    rw [hk, hsq]; norm_num
  have hda : (pr78AB 2500 100 50 0.3).da = 2 * (0.457235529 * Rgas ^ 2 * 100 ^ 2 / 50) * (-2.2521008 * (-0.5 * 0.8130252 / 500)) := by
    unfold pr78AB
    dsimp only
    rw [hk, hsq]; norm_num
  have hs : PrSingle (pr78AB 2500 100 50 0.3).a (pr78AB 2500 100 50 0.3).b 2500 50 := by
    rw [ha, pr78_b]
    unfold PrSingle
    dsimp only
    obtain ⟨e1, e2⟩ := AB_num (c := 0.457235529) (cb := 0.0777960739) (q := 2.2521008)
      (T := 2500) (P := 50) (Tc := 100) (Pc := 50) (by norm_num) (by norm_num) (by norm_num)
    rw [e1, e2]
    unfold discr cubic
    norm_num
  refine pr_wrong (Tc := 100) (Pc := 50) (p := fun t => pr78AB t 100 50 0.3) (b := 0.0777960739 * Rgas * 100 / 50)
    (x := -((pr78AB 2500 100 50 0.3).a * ((2.2521008 - 1) / (1 - 5) * 5 / 2.2521008)) / 2500) (by norm_num) (by norm_num) (by norm_num)
    (by positivity) pr78_b (pr78_a (by norm_num)) (pr78_da (by norm_num) (by norm_num)).1 (by norm_num) ?_ ?_ hs.one
  · rw [hsq, ha, mul_div_cancel_right₀ _ (by positivity), Real.sqrt_sq (by norm_num)]
    ring
  · rw [ha, hda]
    intro h
    have h2 : 0 < Rgas ^ 2 := by positivity
    generalize Rgas ^ 2 = r at *
    norm_num at h
    nlinarith

/-- The function 1 + k(1-√Tr) of PRSV below the critical temperature for k2 = 0. -/
noncomputable def sqS (Tc k0 k1 t : ℝ) : ℝ :=
  1 + (k0 + k1 * (1 + Real.sqrt (t / Tc)) * (0.7 - t / Tc)) * (1 - Real.sqrt (t / Tc))

/-- Its derivative. -/
noncomputable def dsqS (Tc k0 k1 t : ℝ) : ℝ :=
  (k1 * (0.7 - t / Tc) / (2 * Real.sqrt (t / Tc) * Tc) - k1 * (1 + Real.sqrt (t / Tc)) / Tc) * (1 - Real.sqrt (t / Tc))
    - (k0 + k1 * (1 + Real.sqrt (t / Tc)) * (0.7 - t / Tc)) / (2 * Real.sqrt (t / Tc) * Tc)

/-- The number the source takes for its second derivative. -/
noncomputable def d2sqS (Tc k0 k1 t : ℝ) : ℝ :=
  (-(k1 * (0.7 - t / Tc)) / (4 * (t / Tc) ^ (1.5 : ℝ) * Tc ^ 2) - k1 / (Real.sqrt (t / Tc) * Tc ^ 2)) * (1 - Real.sqrt (t / Tc))
    + (-k1 * (0.7 - t / Tc) / (2 * Real.sqrt (t / Tc) * Tc) - k1 * (1 + Real.sqrt (t / Tc)) / Tc) / (Real.sqrt (t / Tc) * Tc)
    + (k0 + k1 * (1 + Real.sqrt (t / Tc)) * (0.7 - t / Tc)) / (4 * (t / Tc) ^ (1.5 : ℝ) * Tc ^ 2)

lemma sqS_deriv {T Tc k0 k1 : ℝ} (hT : 0 < T) (hTc : 0 < Tc) : HasDerivAt (sqS Tc k0 k1) (dsqS Tc k0 k1 T) T := by
  have hs : 0 < Real.sqrt (T / Tc) := Real.sqrt_pos.mpr (by positivity)
  have d0 := sqrt_deriv hT hTc
  have d := ((((d0.const_add 1).const_mul k1).fun_mul (((hasDerivAt_id' T).div_const Tc).const_sub 0.7)).const_add k0).fun_mul (d0.const_sub 1)
  refine (d.const_add 1).congr_deriv ?_
  unfold dsqS
  generalize Real.sqrt (T / Tc) = s at *
  field_simp
  ring

lemma dsqS_deriv {T Tc k0 k1 : ℝ} (hT : 0 < T) (hTc : 0 < Tc) :
    HasDerivAt (dsqS Tc k0 k1) (d2sqS Tc k0 k1 T + 2 * k1 * (1 + Real.sqrt (T / Tc)) / (Real.sqrt (T / Tc) * Tc ^ 2)) T := by
  have hs : 0 < Real.sqrt (T / Tc) := Real.sqrt_pos.mpr (by positivity)
  have hs2 : Real.sqrt (T / Tc) ^ 2 = T / Tc := Real.sq_sqrt (by positivity)
  have d0 := sqrt_deriv hT hTc
  have dt : HasDerivAt (fun t : ℝ => 0.7 - t / Tc) (-(1 / Tc)) T := ((hasDerivAt_id' T).div_const Tc).const_sub 0.7
  have dd := (d0.const_mul 2).mul_const Tc
  have h2 : 2 * Real.sqrt (T / Tc) * Tc ≠ 0 := by positivity
  have d1 := (((dt.const_mul k1).fun_div dd h2).fun_sub (((d0.const_add 1).const_mul k1).div_const Tc)).fun_mul (d0.const_sub 1)
  have d2 := ((((d0.const_add 1).const_mul k1).fun_mul dt).const_add k0).fun_div dd h2
  refine (d1.fun_sub d2).congr_deriv ?_
  unfold d2sqS
  rw [pow15 (by positivity), ← hs2]
  generalize Real.sqrt (T / Tc) = s at *
  field_simp
  ring

lemma prsv_below {T Tc Pc omg k1 k3 : ℝ} (h : T < Tc) :
    (prsvAB T Tc Pc omg k1 0 k3).a = sqS Tc (k0S omg) k1 T ^ 2 * (0.457235 * Rgas ^ 2 * Tc ^ 2 / Pc) ∧
    (prsvAB T Tc Pc omg k1 0 k3).da = 2 * (0.457235 * Rgas ^ 2 * Tc ^ 2 / Pc) * (sqS Tc (k0S omg) k1 T * dsqS Tc (k0S omg) k1 T) ∧
    (prsvAB T Tc Pc omg k1 0 k3).d2a = 2 * (0.457235 * Rgas ^ 2 * Tc ^ 2 / Pc)
      * (dsqS Tc (k0S omg) k1 T * dsqS Tc (k0S omg) k1 T + sqS Tc (k0S omg) k1 T * d2sqS Tc (k0S omg) k1 T) := by
  unfold prsvAB k0S
  dsimp only
  rw [if_neg (not_le.mpr h), if_neg (not_le.mpr h), if_neg (not_le.mpr h), zero_mul, zero_mul, add_zero]
  exact ⟨rfl, rfl, rfl⟩

/-- a and its two derivatives below the critical temperature for k2 = 0. -/
lemma prsv_da {T Tc Pc omg k1 k3 : ℝ} (hT : 0 < T) (hTc : 0 < Tc) (h : T < Tc) :
    HasDerivAt (fun t => (prsvAB t Tc Pc omg k1 0 k3).a) (prsvAB T Tc Pc omg k1 0 k3).da T ∧
    HasDerivAt (fun t => (prsvAB t Tc Pc omg k1 0 k3).da) ((prsvAB T Tc Pc omg k1 0 k3).d2a
      + 2 * (0.457235 * Rgas ^ 2 * Tc ^ 2 / Pc) * (sqS Tc (k0S omg) k1 T
        * (2 * k1 * (1 + Real.sqrt (T / Tc)) / (Real.sqrt (T / Tc) * Tc ^ 2)))) T := by
  have ev : ∀ᶠ t in 𝓝 T, t < Tc := gt_mem_nhds h
  have d1 := sqS_deriv (k0 := k0S omg) (k1 := k1) hT hTc
  have d2 := dsqS_deriv (k0 := k0S omg) (k1 := k1) hT hTc
  obtain ⟨-, e2, e3⟩ := prsv_below (Pc := Pc) (omg := omg) (k1 := k1) (k3 := k3) h
  constructor
  · rw [e2]
    refine (((d1.fun_pow 2).mul_const _).congr_of_eventuallyEq (ev.mono fun t ht => (prsv_below ht).1)).congr_deriv ?_
    push_cast; ring
  · rw [e3]
    refine (((d1.fun_mul d2).const_mul _).congr_of_eventuallyEq (ev.mono fun t ht => (prsv_below ht).2.1)).congr_deriv ?_
    ring

/-- **C102** is violated by PRSV: below the critical temperature the coefficient k1 makes k a function of temperature, which the formula of H
ignores.  Whenever k1 ≠ 0, k2 = 0 and the derivative of k does not vanish, S is not minus the derivative of G.  (The hypotheses that the
cubic has one real root and that 1 + k(1-√Tr) is positive are those of the positive results.) -/
theorem C102_prsv_refuted (T P : ℝ) (k : Nat → ℝ) (hT : 0 < T) (hP : 0 < P) (hPc : 0 < k 1) (h1 : T < k 0) (hk1 : k 3 ≠ 0)
    (hk2 : k 4 = 0) (hdk : (0.7 - T / k 0) / (2 * Real.sqrt (T / k 0)) ≠ 1 + Real.sqrt (T / k 0))
    (hpos : 0 < 1 + (k0S (k 2) + k 3 * (1 + Real.sqrt (T / k 0)) * (0.7 - T / k 0)) * (1 - Real.sqrt (T / k 0)))
    (h : PrSingle (prsvAB T (k 0) (k 1) (k 2) (k 3) (k 4) (k 5)).a (prsvAB T (k 0) (k 1) (k 2) (k 3) (k 4) (k 5)).b T P) :
    EntropyWrong (fun t => fugacityPT .PRSV t P k) T := by
  have hR := Rpos
  have hTc : 0 < k 0 := by linarith
  have hs : 0 < Real.sqrt (T / k 0) := Real.sqrt_pos.mpr (by positivity)
  have hs2 : Real.sqrt (T / k 0) ^ 2 = T / k 0 := Real.sq_sqrt (by positivity)
  have hs1 : 1 - Real.sqrt (T / k 0) ≠ 0 := by
    intro h'
    have : Real.sqrt (T / k 0) = 1 := by linarith
    rw [Real.sqrt_eq_one] at this
    field_simp at this
    linarith
  unfold fugacityPT
  dsimp only
  rw [hk2] at h ⊢
  have hb := prsv_below (Pc := k 1) (omg := k 2) (k1 := k 3) (k3 := k 5) h1
  have ha' := (prsv_da (Pc := k 1) (omg := k 2) (k1 := k 3) (k3 := k 5) hT hTc h1).1
  change 0 < sqS (k 0) (k0S (k 2)) (k 3) T at hpos
  have hx : 0 < 0.457235 * Rgas ^ 2 * k 0 ^ 2 / k 1 := by positivity
  refine pr_wrong (p := fun t => prsvAB t (k 0) (k 1) (k 2) (k 3) 0 (k 5)) (b := 0.077796 * Rgas * k 0 / k 1)
    (x := -(0.457235 * Rgas ^ 2 * k 0 ^ 2 / k 1 * (k0S (k 2) + k 3 * (1 + Real.sqrt (T / k 0)) * (0.7 - T / k 0)) * Real.sqrt (T / k 0)
      * sqS (k 0) (k0S (k 2)) (k 3) T) / T) hT hP hTc
    (by positivity) prsv_b (prsv_a hPc) ha' h1.ne ?_ ?_ h.one
  · rw [hb.1, mul_div_cancel_right₀ _ hx.ne', Real.sqrt_sq hpos.le]
    generalize 0.457235 * Rgas ^ 2 * k 0 ^ 2 / k 1 = ac at *
    have e : (sqS (k 0) (k0S (k 2)) (k 3) T - 1) / (1 - Real.sqrt (T / k 0))
        = k0S (k 2) + k 3 * (1 + Real.sqrt (T / k 0)) * (0.7 - T / k 0) := by
      unfold sqS
      rw [add_sub_cancel_left, mul_div_cancel_right₀ _ hs1]
    rw [e]
    have := hpos.ne'
    generalize sqS (k 0) (k0S (k 2)) (k 3) T = q at *
    field_simp
    ring
  · rw [hb.2.1]
    intro h'
    apply hdk
    have h2 : 2 * dsqS (k 0) (k0S (k 2)) (k 3) T = -((k0S (k 2) + k 3 * (1 + Real.sqrt (T / k 0)) * (0.7 - T / k 0)) * Real.sqrt (T / k 0)) / T := by
      have hne : 0.457235 * Rgas ^ 2 * k 0 ^ 2 / k 1 * sqS (k 0) (k0S (k 2)) (k 3) T ≠ 0 := mul_ne_zero hx.ne' hpos.ne'
      apply mul_left_cancel₀ hne
      linear_combination h'
    unfold dsqS at h2
    have hT' : T = Real.sqrt (T / k 0) ^ 2 * k 0 := by rw [hs2]; field_simp
    generalize hS : Real.sqrt (T / k 0) = S at *
    rw [← hs2] at h2 ⊢
    have h3 : k 3 * ((0.7 - S ^ 2) / (2 * S) - (1 + S)) * (1 - S) = 0 := by
      rw [hT'] at h2
      field_simp at h2 ⊢
      linarith
    rcases mul_eq_zero.mp h3 with h4 | h4
    · rcases mul_eq_zero.mp h4 with h5 | h5
      · exact absurd h5 hk1
      · linarith
    · exact absurd h4 hs1

/-- Critical constants and k1 like those of water. -/
noncomputable def exWater : Nat → ℝ := fun i => [650, 221, 0.3438, -0.06635, 0, 0, 0].getD i 0

lemma w0 : exWater 0 = 650 := rfl
lemma w1 : exWater 1 = 221 := rfl
lemma w2 : exWater 2 = 0.3438 := rfl
lemma w3 : exWater 3 = -0.06635 := rfl
lemma w4 : exWater 4 = 0 := rfl

lemma exWater_pos : 0 < 1 + (k0S (exWater 2) + exWater 3 * (1 + Real.sqrt (416 / exWater 0)) * (0.7 - 416 / exWater 0))
      * (1 - Real.sqrt (416 / exWater 0)) := by
  unfold k0S
  rw [w0, w2, w3, sqrt_ex 0.8 (by norm_num) (by norm_num : (416 / 650 : ℝ) = 0.8 ^ 2)]
  norm_num

lemma exWater_single : PrSingle (prsvAB 416 (exWater 0) (exWater 1) (exWater 2) (exWater 3) (exWater 4) (exWater 5)).a
    (prsvAB 416 (exWater 0) (exWater 1) (exWater 2) (exWater 3) (exWater 4) (exWater 5)).b 416 1000 := by
  rw [prsv_b, w4, (prsv_below (by rw [w0]; norm_num)).1]
  unfold PrSingle sqS k0S
  dsimp only
  rw [w0, w1, w2, w3, sqrt_ex 0.8 (by norm_num) (by norm_num : (416 / 650 : ℝ) = 0.8 ^ 2)]
  obtain ⟨e1, e2⟩ := AB_num (c := 0.457235) (cb := 0.077796)
    (q := 1 + (0.378893 + 1.4897153 * 0.3438 - 0.17131848 * 0.3438 ^ 2 + 0.0196554 * 0.3438 ^ 3 + -0.06635 * (1 + 0.8) * (0.7 - 416 / 650)) * (1 - 0.8))
    (T := 416) (P := 1000) (Tc := 650) (Pc := 221) (by norm_num) (by norm_num) (by norm_num)
  rw [e1, e2]
  unfold discr cubic
  norm_num

example : EntropyWrong (fun t => fugacityPT .PRSV t 1000 exWater) 416 :=
  C102_prsv_refuted 416 1000 exWater (by norm_num) (by norm_num) (by rw [w1]; norm_num) (by rw [w0]; norm_num) (by rw [w3]; norm_num) rfl
    (by rw [w0, sqrt_ex 0.8 (by norm_num) (by norm_num : (416 / 650 : ℝ) = 0.8 ^ 2)]; norm_num) exWater_pos exWater_single

/-- **C103** is violated by PRSV: with k1 ≠ 0 the number taken for d²a/dT² is not the derivative of da/dT (a sign is wrong in the source), and
the heat capacity differs from -T d²G/dT². -/
theorem C103_prsv_refuted (T P : ℝ) (k : Nat → ℝ) (hT : 0 < T) (hP : 0 < P) (hPc : 0 < k 1) (h1 : T < k 0) (hk1 : k 3 ≠ 0)
    (hk2 : k 4 = 0)
    (hpos : 0 < 1 + (k0S (k 2) + k 3 * (1 + Real.sqrt (T / k 0)) * (0.7 - T / k 0)) * (1 - Real.sqrt (T / k 0)))
    (h : PrSingle (prsvAB T (k 0) (k 1) (k 2) (k 3) (k 4) (k 5)).a (prsvAB T (k 0) (k 1) (k 2) (k 3) (k 4) (k 5)).b T P) :
    ∃ f : ℝ → Fug, ∃ g' : ℝ → ℝ, ∃ g'' : ℝ,
      (∀ᶠ t in 𝓝 T, fugacityPT .PRSV t P k = some (f t) ∧ HasDerivAt (fun t => (f t).g) (g' t) t) ∧ HasDerivAt g' g'' T ∧
      (f T).cp ≠ -T * g'' := by
  have hR := Rpos
  have hTc : 0 < k 0 := by linarith
  have hs : 0 < Real.sqrt (T / k 0) := Real.sqrt_pos.mpr (by positivity)
  unfold fugacityPT
  dsimp only
  rw [hk2] at h ⊢
  change 0 < sqS (k 0) (k0S (k 2)) (k 3) T at hpos
  set p : ℝ → AB := fun t => prsvAB t (k 0) (k 1) (k 2) (k 3) 0 (k 5) with hp
  set b := 0.077796 * Rgas * k 0 / k 1 with hbdef
  have hb : 0 < b := by positivity
  have hpb : ∀ t, (p t).b = b := prsv_b
  have hpa : ∀ t, 0 ≤ (p t).a := prsv_a hPc
  have hda : ∀ t, 0 < t → t < k 0 → HasDerivAt (fun t => (p t).a) (p t).da t := fun t h0 ht => (prsv_da h0 hTc ht).1
  obtain ⟨f, ev, hd⟩ := pr_family (c := 0.457235) (Tc := k 0) (Pc := k 1) hT hP hb hpb hpa (hda T hT h1) h.one
  -- the derivative of G at nearby temperatures
  have ev' : ∀ᶠ t in 𝓝 T, (0 < t ∧ t < k 0 ∧ PrOne (p t).a b t P) ∧ HasDerivAt (fun t => (f t).g)
      ((gres Rgas uPR wPR P t (p t).a b (prZ (p t).a b t P * Rgas * t / P)
        - hres Rgas uPR wPR P t (p t).a (p t).da b (prZ (p t).a b t P * Rgas * t / P)) / t) t := by
    have e0 := ev.eventually_nhds
    filter_upwards [e0, gt_mem_nhds h1] with t ht ht1
    have hself := ht.self_of_nhds
    refine ⟨⟨hself.1, ht1, hself.2.1⟩, ?_⟩
    obtain ⟨f2, ev2, hd2⟩ := pr_family (c := 0.457235) (Tc := k 0) (Pc := k 1) hself.1 hP hb hpb hpa (hda t hself.1 ht1) hself.2.1
    refine hd2.congr_of_eventuallyEq ?_
    filter_upwards [ht, ev2] with x h1 h2
    have : f x = f2 x := h1.2.2.2.trans h2.2.2.2.symm
    rw [this]
  have hA2 := (prsv_da (Pc := k 1) (omg := k 2) (k1 := k 3) (k3 := k 5) hT hTc h1).2
  have dg := ev'.self_of_nhds.2
  have dh := pr_hres_T (A := fun t => (p t).a) (A' := fun t => (p t).da) hT hP hb hpa (hda T hT h1) hA2 h.one
  have geq : ∀ᶠ t in 𝓝 T, gres Rgas uPR wPR P t (p t).a b (prZ (p t).a b t P * Rgas * t / P) = (f t).g := by
    filter_upwards [ev] with t ht
    obtain ⟨t0, -, -, e⟩ := ht
    have := prProps_g (c := 0.457235) (Tc := k 0) (Pc := k 1) (z := prZ (p t).a b t P)
      (l := prLnf (Ax (p t).a t P) (Bx b t P) (prZ (p t).a b t P)) (p := p t) t0 hP (by rw [hpb]; exact hb)
    rw [← e, hpb] at this
    exact this.symm
  have dg' := dg.congr_of_eventuallyEq geq
  have d2 := (dg'.fun_sub dh).fun_div (hasDerivAt_id' T) hT.ne'
  refine ⟨f, _, _, (ev.and ev').mono fun t ht => ⟨ht.1.2.2.1, ht.2.2⟩, d2, ?_⟩
  obtain ⟨-, -, -, e⟩ := ev.self_of_nhds
  have hcp : (f T).cp = cres Rgas uPR wPR T (p T).a (p T).da (p T).d2a b (prZ (p T).a b T P * Rgas * T / P) := by
    have := prProps_cp (c := 0.457235) (Tc := k 0) (Pc := k 1) (z := prZ (p T).a b T P)
      (l := prLnf (Ax (p T).a T P) (Bx b T P) (prZ (p T).a b T P)) (p := p T) hT hP
    rw [← e, hpb] at this
    exact this
  rw [hcp]
  have r := pr_rootOf hT hP (hpa T) hb h.one
  have hL : 0 < Real.log ((prZ (p T).a b T P * Rgas * T / P + uPR * b) / (prZ (p T).a b T P * Rgas * T / P + wPR * b)) := by
    apply Real.log_pos
    rw [lt_div_iff₀ r.vW]
    nlinarith [sqrt2_pos]
  set X := 2 * (0.457235 * Rgas ^ 2 * k 0 ^ 2 / k 1) * (sqS (k 0) (k0S (k 2)) (k 3) T
        * (2 * k 3 * (1 + Real.sqrt (T / k 0)) / (Real.sqrt (T / k 0) * k 0 ^ 2))) with hX
  have hX0 : X ≠ 0 := by
    rw [hX]
    have h3 : 1 + Real.sqrt (T / k 0) ≠ 0 := by positivity
    have h4 : 0.457235 * Rgas ^ 2 * k 0 ^ 2 / k 1 ≠ 0 := by positivity
    have h5 := hpos.ne'
    have h6 : Real.sqrt (T / k 0) * k 0 ^ 2 ≠ 0 := by positivity
    exact mul_ne_zero (mul_ne_zero two_ne_zero h4) (mul_ne_zero h5 (div_ne_zero (mul_ne_zero (mul_ne_zero two_ne_zero hk1) h3) h6))
  intro hEq
  change _ = -T * ((((gres Rgas uPR wPR P T (p T).a b (prZ (p T).a b T P * Rgas * T / P)
        - hres Rgas uPR wPR P T (p T).a (p T).da b (prZ (p T).a b T P * Rgas * T / P)) / T
      - cres Rgas uPR wPR T (p T).a (p T).da ((p T).d2a + X) b (prZ (p T).a b T P * Rgas * T / P)) * T
      - (gres Rgas uPR wPR P T (p T).a b (prZ (p T).a b T P * Rgas * T / P)
        - hres Rgas uPR wPR P T (p T).a (p T).da b (prZ (p T).a b T P * Rgas * T / P)) * 1) / T ^ 2) at hEq
  generalize gres Rgas uPR wPR P T (p T).a b (prZ (p T).a b T P * Rgas * T / P) = G at hEq
  generalize hres Rgas uPR wPR P T (p T).a (p T).da b (prZ (p T).a b T P * Rgas * T / P) = H at hEq
  have h7 : -T * (((G - H) / T - cres Rgas uPR wPR T (p T).a (p T).da ((p T).d2a + X) b (prZ (p T).a b T P * Rgas * T / P)) * T - (G - H) * 1) / T ^ 2
      = cres Rgas uPR wPR T (p T).a (p T).da ((p T).d2a + X) b (prZ (p T).a b T P * Rgas * T / P) := by
    field_simp
    ring
  rw [← mul_div_assoc, h7] at hEq
  unfold cres at hEq
  have h8 : 0 < b * (uPR - wPR) := mul_pos hb (by linarith [sqrt2_pos])
  have h9 : T * X / (b * (uPR - wPR)) * Real.log ((prZ (p T).a b T P * Rgas * T / P + uPR * b) / (prZ (p T).a b T P * Rgas * T / P + wPR * b)) = 0 := by
    linear_combination -hEq
  rcases mul_eq_zero.mp h9 with h10 | h10
  · rw [div_eq_zero_iff] at h10
    rcases h10 with h10 | h10
    · exact hX0 ((mul_eq_zero.mp h10).resolve_left hT.ne')
    · exact h8.ne' h10
  · exact hL.ne' h10

example : ∃ f : ℝ → Fug, ∃ g' : ℝ → ℝ, ∃ g'' : ℝ,
      (∀ᶠ t in 𝓝 416, fugacityPT .PRSV t 1000 exWater = some (f t) ∧ HasDerivAt (fun t => (f t).g) (g' t) t) ∧ HasDerivAt g' g'' 416 ∧
      (f 416).cp ≠ -416 * g'' :=
  C103_prsv_refuted 416 1000 exWater (by norm_num) (by norm_num) (by rw [w1]; norm_num) (by rw [w0]; norm_num) (by rw [w3]; norm_num) rfl
    exWater_pos exWater_single

/-- **C103** is violated by PRSV for k2 ≠ 0 as well: the number taken for da/dT ignores k2 and k3.  Witness: Tc = 400, ω = 0, k2 = 1, k3 = 0,
T = 100. -/
theorem C103_k2_refuted : ∃ x, HasDerivAt (fun t => (prsvAB t 400 50 0 0 1 0).a) x 100 ∧ x ≠ (prsvAB 100 400 50 0 0 1 0).da := by
  have hR := Rpos
  have hs : Real.sqrt (100 / 400 : ℝ) = 0.5 := sqrt_ex 0.5 (by norm_num) (by norm_num)
  have ev : ∀ᶠ t in 𝓝 (100 : ℝ), t < 400 := gt_mem_nhds (by norm_num)
  have d0 := sqrt_deriv (T := 100) (Tc := 400) (by norm_num) (by norm_num)
  have dt := (hasDerivAt_id' (100 : ℝ)).div_const 400
  have d := (((((((dt.const_sub 0).const_mul 1).fun_mul (d0.const_sub 1)).const_add 0).fun_mul (d0.const_add 1)).fun_mul (dt.const_sub 0.7)).const_add
    (0.378893 + 1.4897153 * 0 - 0.17131848 * 0 ^ 2 + 0.0196554 * 0 ^ 3)).fun_mul (d0.const_sub 1)
  have d2 := ((d.const_add 1).fun_pow 2).mul_const (0.457235 * Rgas ^ 2 * 400 ^ 2 / 50)
  refine ⟨_, d2.congr_of_eventuallyEq (ev.mono fun t ht => ?_), ?_⟩
  · unfold prsvAB
    dsimp only
    rw [if_neg (not_le.mpr ht), if_neg (not_le.mpr ht)]
  · unfold prsvAB
    dsimp only
    rw [if_neg (by norm_num), if_neg (by norm_num), hs]
    have h2 : 0 < Rgas ^ 2 := by positivity
    generalize Rgas ^ 2 = r at *
    intro h
    norm_num at h
    linarith

end ThermoFun.Gas

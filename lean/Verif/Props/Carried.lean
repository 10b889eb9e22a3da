import Verif.Lemmas.Carries
import Verif.Props.Solutes
import Verif.Props.LogK

/-!
Theorems about the derivatives the results carry (C98): every model computes with ThermoScalars, whose `ddt` and `ddp` are meant to be the
partial derivatives of the value.  Where a model mixes in plain numbers that depend on T, or temperatures that do not, they are not.
-/

namespace ThermoFun

/-- All properties of a substance carry their derivatives. -/
structure CarriesS (f : ℝ → ℝ → TPS) (T P : ℝ) : Prop where
  hG : Carries (fun t p => (f t p).G) T P
  hA : Carries (fun t p => (f t p).A) T P
  hU : Carries (fun t p => (f t p).U) T P
  hH : Carries (fun t p => (f t p).H) T P
  hS : Carries (fun t p => (f t p).S) T P
  hV : Carries (fun t p => (f t p).V) T P
  hCp : Carries (fun t p => (f t p).Cp) T P
  hCv : Carries (fun t p => (f t p).Cv) T P

/-- All properties of a reaction carry their derivatives. -/
structure CarriesR (f : ℝ → ℝ → TPR) (T P : ℝ) : Prop where
  hlnK : Carries (fun t p => (f t p).lnK) T P
  hlogK : Carries (fun t p => (f t p).logK) T P
  hG : Carries (fun t p => (f t p).G) T P
  hA : Carries (fun t p => (f t p).A) T P
  hU : Carries (fun t p => (f t p).U) T P
  hH : Carries (fun t p => (f t p).H) T P
  hS : Carries (fun t p => (f t p).S) T P
  hV : Carries (fun t p => (f t p).V) T P
  hCp : Carries (fun t p => (f t p).Cp) T P
  hCv : Carries (fun t p => (f t p).Cv) T P

/-- The solvent carries its derivatives. -/
structure CarriesW (wp : ℝ → ℝ → Solv) (T P : ℝ) : Prop where
  hρ : Carries (fun t p => (wp t p).density) T P
  hα : Carries (fun t p => (wp t p).Alpha) T P
  hβ : Carries (fun t p => (wp t p).Beta) T P
  hdα : Carries (fun t p => (wp t p).dAldT) T P

/-- Constant properties, as those read from a record: they carry no derivatives. -/
structure ConstS (x : TPS) : Prop where
  hG : x.G.ddt = 0 ∧ x.G.ddp = 0
  hA : x.A.ddt = 0 ∧ x.A.ddp = 0
  hU : x.U.ddt = 0 ∧ x.U.ddp = 0
  hH : x.H.ddt = 0 ∧ x.H.ddp = 0
  hS : x.S.ddt = 0 ∧ x.S.ddp = 0
  hV : x.V.ddt = 0 ∧ x.V.ddp = 0
  hCp : x.Cp.ddt = 0 ∧ x.Cp.ddp = 0
  hCv : x.Cv.ddt = 0 ∧ x.Cv.ddp = 0

/-- As `ConstS`, for reactions. -/
structure ConstR (x : TPR) : Prop where
  hlogK : x.logK.ddt = 0 ∧ x.logK.ddp = 0
  hG : x.G.ddt = 0 ∧ x.G.ddp = 0
  hH : x.H.ddt = 0 ∧ x.H.ddp = 0
  hS : x.S.ddt = 0 ∧ x.S.ddp = 0
  hV : x.V.ddt = 0 ∧ x.V.ddp = 0
  hCp : x.Cp.ddt = 0 ∧ x.Cp.ddp = 0

lemma Carries.const' {c : TS} (h : c.ddt = 0 ∧ c.ddp = 0) {T P : ℝ} : Carries (fun _ _ => c) T P := .const c h.1 h.2

/-- Side conditions of the closure rules. -/
macro "side" : tactic => `(tactic| all_goals first
  | assumption
  | (exact Or.inr (by norm_num))
  | (refine Or.inl ?_; norm_num [*, TS.ln10, rbConst, Rgas]; done)
  | (norm_num [*, TS.ln10, rbConst, Rgas]; done))

/-! ### Density models of reactions -/

lemma carries_fm (k : List ℝ) (wp : ℝ → ℝ → Solv) (T P : ℝ) (hT : T ≠ 0) (hρ : (wp T P).density.val ≠ 0) (hw : CarriesW wp T P)
    (f : ℝ → ℝ → TPR) (hf : ∀ t p, fm (TS.temperature t) (pbar p) k (wp t p) = .ok (f t p)) : CarriesR f T P := by
  obtain ⟨h1, h2, h3, h4⟩ := hw
  match k, hf with
  | a :: b :: c :: d :: e :: f' :: g :: rest, hf =>
    obtain rfl : f = fun t p => _ := by
      funext t p
      exact (Res.ok.inj (hf t p)).symm
    clear hf
    constructor <;> dsimp only
    all_goals carries
    side
  | [], hf => exact absurd (hf T P) (by simp [fm])
  | [_], hf => exact absurd (hf T P) (by simp [fm])
  | [_, _], hf => exact absurd (hf T P) (by simp [fm])
  | [_, _, _], hf => exact absurd (hf T P) (by simp [fm])
  | [_, _, _, _], hf => exact absurd (hf T P) (by simp [fm])
  | [_, _, _, _, _], hf => exact absurd (hf T P) (by simp [fm])
  | [_, _, _, _, _, _], hf => exact absurd (hf T P) (by simp [fm])

lemma carries_rb (k : List ℝ) (wp : ℝ → ℝ → Solv) (T P : ℝ) (hT : T ≠ 0) (hρ : (wp T P).density.val ≠ 0) (hw : CarriesW wp T P)
    (f : ℝ → ℝ → TPR) (hf : ∀ t p, rb (TS.temperature t) (pbar p) k (wp t p) = .ok (f t p)) : CarriesR f T P := by
  obtain ⟨h1, h2, h3, h4⟩ := hw
  match k, hf with
  | a :: b :: c :: rest, hf =>
    obtain rfl : f = fun t p => _ := by
      funext t p
      exact (Res.ok.inj (hf t p)).symm
    clear hf
    constructor <;> dsimp only
    all_goals carries
    side
  | [], hf => exact absurd (hf T P) (by simp [rb])
  | [_], hf => exact absurd (hf T P) (by simp [rb])
  | [_, _], hf => exact absurd (hf T P) (by simp [rb])

/-- **C98, density models of reactions.**  If the properties of the solvent carry their derivatives, so do all results the entry points of the
density models return, at every T ≠ 0 and non-zero density. -/
theorem C98_density (m : DensityModel) (k : DensityCoef) (wp : ℝ → ℝ → Solv) (T P : ℝ) (hT : T ≠ 0)
    (hρ : (wp T P).density.val ≠ 0) (hw : CarriesW wp T P) (f : ℝ → ℝ → TPR) (hf : ∀ t p, densityEntry m t p k (wp t p) = .ok (f t p)) :
    CarriesR f T P := by
  cases m with
  | DolejsManning10 => exact carries_fm k.FM wp T P hT hρ hw f hf
  | FrantzMarshall => exact carries_fm k.FM wp T P hT hρ hw f hf
  | RyzhenkoBryzgalin => exact carries_rb k.RB wp T P hT hρ hw f hf

/-- As `C98_density`, for the model of Dolejš and Manning itself, which no entry point reaches. -/
theorem C98_dm10 (k : List ℝ) (wp : ℝ → ℝ → Solv) (T P : ℝ) (hT : T ≠ 0) (hρ : (wp T P).density.val ≠ 0) (hw : CarriesW wp T P)
    (f : ℝ → ℝ → TPR) (hf : ∀ t p, dm10 (TS.temperature t) (pbar p) k (wp t p) = .ok (f t p)) : CarriesR f T P := by
  obtain ⟨h1, h2, h3, h4⟩ := hw
  match k, hf with
  | a :: b :: c :: d :: e :: rest, hf =>
    obtain rfl : f = fun t p => _ := by
      funext t p
      exact (Res.ok.inj (hf t p)).symm
    clear hf
    constructor <;> dsimp only
    all_goals carries
    side
  | [], hf => exact absurd (hf T P) (by simp [dm10])
  | [_], hf => exact absurd (hf T P) (by simp [dm10])
  | [_, _], hf => exact absurd (hf T P) (by simp [dm10])
  | [_, _, _], hf => exact absurd (hf T P) (by simp [dm10])
  | [_, _, _, _], hf => exact absurd (hf T P) (by simp [dm10])

/-- A solvent that carries its derivatives, for the examples. -/
noncomputable def exSolv3 (t p : ℝ) : Solv :=
  { density := (1000 : ℝ) * TS.exp ((-1e-5 : ℝ) * TS.powR (TS.temperature t) 2 + (1e-4 : ℝ) * pbar p)
    Alpha := (2e-5 : ℝ) * TS.temperature t
    Beta := TS.assign TS.default 1e-9
    dAldT := TS.assign TS.default 2e-5 }

lemma exSolv3_ok (T P : ℝ) : CarriesW exSolv3 T P := by
  constructor <;> dsimp only [exSolv3]
  · carries; side
  · carries
  · exact .const _ rfl rfl
  · exact .const _ rfl rfl

/-- The hypotheses of `C98_density` hold for this solvent at 400 K and 100 bar. -/
example : ∃ f, (∀ t p, densityEntry .FrantzMarshall t p ⟨[], [1, 2, 3, 4, 5, 6, 7], []⟩ (exSolv3 t p) = .ok (f t p)) ∧
    CarriesR f 400 1e7 :=
  ⟨fun t p => _, fun t p => rfl, C98_density .FrantzMarshall ⟨[], [1, 2, 3, 4, 5, 6, 7], []⟩ exSolv3 400 1e7 (by norm_num)
    (by simp [exSolv3]) (exSolv3_ok _ _) _ fun t p => rfl⟩

/-! ### log K as a function of temperature -/

namespace TS
lemma add_op (a b : TS) : TS.add a b = a + b := rfl
lemma sub_op (a b : TS) : TS.sub a b = a - b := rfl
lemma mul_op (a b : TS) : TS.mul a b = a * b := rfl
lemma div_op (a b : TS) : TS.div a b = a / b := rfl
lemma neg_op (a : TS) : TS.neg a = -a := rfl
lemma addL_op (c : ℝ) (a : TS) : TS.addL c a = c + a := rfl
lemma addR_op (c : ℝ) (a : TS) : TS.addR a c = a + c := rfl
lemma subL_op (c : ℝ) (a : TS) : TS.subL c a = c - a := rfl
lemma subR_op (c : ℝ) (a : TS) : TS.subR a c = a - c := rfl
lemma mulL_op (c : ℝ) (a : TS) : TS.mulL c a = c * a := rfl
lemma mulR_op (c : ℝ) (a : TS) : TS.mulR a c = a * c := rfl
lemma divL_op (c : ℝ) (a : TS) : TS.divL c a = c / a := rfl
lemma divR_op (c : ℝ) (a : TS) : TS.divR a c = a / c := rfl
end TS

/-- Turns the operators' names into the operators. -/
macro "ops" : tactic => `(tactic| simp only [TS.add_op, TS.sub_op, TS.mul_op, TS.div_op, TS.neg_op, TS.addL_op, TS.addR_op, TS.subL_op, TS.subR_op,
  TS.mulL_op, TS.mulR_op, TS.divL_op, TS.divR_op])

/-- What the switch over the methods computes carries its derivatives. -/
structure CarriesM (m : ℝ → ℝ → Mid) (T P : ℝ) : Prop where
  hK : Carries (fun t p => (m t p).lgK) T P
  hH : Carries (fun t p => (m t p).H) T P
  hS : Carries (fun t p => (m t p).S) T P
  hCp : Carries (fun t p => (m t p).Cp) T P

lemma carries_fillH (ref : TPR) (hr : ConstR ref) (T P : ℝ) : Carries (fun t _ => fillH (TS.temperature t) ref) T P := by
  have h1 := Carries.const' hr.hG (T := T) (P := P)
  have h2 := Carries.const' hr.hS (T := T) (P := P)
  have h3 := Carries.const' hr.hH (T := T) (P := P)
  unfold fillH
  by_cases h : ref.S.has ∧ ref.G.has ∧ ¬ ref.H.has
  · simp only [h, not_false_eq_true, and_self, if_true]; ops; carries
  · simp only [h, if_false]; exact h3

lemma carries_fillS (ref : TPR) (hr : ConstR ref) (T P : ℝ) (hT : T ≠ 0) : Carries (fun t _ => fillS (TS.temperature t) ref) T P := by
  have h1 := Carries.const' hr.hG (T := T) (P := P)
  have h2 := Carries.const' hr.hS (T := T) (P := P)
  have h3 := Carries.const' hr.hH (T := T) (P := P)
  unfold fillS
  by_cases h : ref.H.has ∧ ref.G.has ∧ ¬ ref.S.has
  · simp only [h, not_false_eq_true, and_self, if_true]; ops; carries; try exact hT
  · simp only [h, if_false]; exact h2

lemma fill_method (ref : TPR) (t t' : ℝ) :
    determineMethod (fillH (TS.temperature t) ref) (fillS (TS.temperature t) ref) ref.Cp =
      determineMethod (fillH (TS.temperature t') ref) (fillS (TS.temperature t') ref) ref.Cp := by
  by_cases h1 : ref.S.has <;> by_cases h2 : ref.G.has <;> by_cases h3 : ref.H.has <;> simp [fillH, fillS, determineMethod, h1, h2, h3]

lemma carries_finish (ref : TPR) (hr : ConstR ref) (m : ℝ → ℝ → Mid) (T P : ℝ) (hm : CarriesM m T P) (h0 : (m T P).H.val ≠ 0) :
    CarriesR (fun t p => finishLogK (TS.temperature t) (pbar p) ref.V (m t p)) T P := by
  have hV := Carries.const' hr.hV (T := T) (P := P)
  obtain ⟨hK, hH, hS, hCp⟩ := hm
  have e1 : ∀ᶠ t in nhds T, (m t P).H.val ≠ 0 := hH.ddt.continuousAt.eventually_ne h0
  have e2 : ∀ᶠ p in nhds P, (m T p).H.val ≠ 0 := hH.ddp.continuousAt.eventually_ne h0
  have hU : Carries (fun t p => (m t p).H - pbar p * ref.V) T P := by carries
  constructor <;> dsimp only [finishLogK, TPR.default]
  · ops; carries
  · exact hK
  · ops; carries
  · have : Carries (fun t p => (m t p).H - pbar p * ref.V - TS.temperature t * (m t p).S) T P := by carries
    refine this.congr ?_ (e1.mono fun t h => ?_) (e2.mono fun p h => ?_)
    · rw [if_pos h0, if_pos h0]; rfl
    · rw [if_pos h, if_pos h]; rfl
    · rw [if_pos h, if_pos h]; rfl
  · refine hU.congr ?_ (e1.mono fun t h => ?_) (e2.mono fun p h => ?_)
    · rw [if_pos h0]; rfl
    · rw [if_pos h]; rfl
    · rw [if_pos h]; rfl
  · exact hH
  · exact hS
  · exact hV
  · exact hCp
  · exact .default

lemma carries_mid7 (a c : ℕ → ℝ) (T P : ℝ) (hT : 0 < T) : CarriesM (fun t _ => mid7 (TS.temperature t) a c) T P := by
  have hT0 := hT.ne'
  constructor <;> dsimp only [mid7] <;> ops <;> carries
  all_goals first
    | assumption
    | exact Or.inl hT0
    | (simp only [TS.op_val_mul, TS.val_powR, TS.val_temperature]; positivity)

lemma carries_switch (ref : TPR) (hr : ConstR ref) (A Cp : List ℝ) (Tr T P : ℝ) (hT : 0 < T) (hTr : Tr ≠ 0) (CE : CorrT)
    (hA : CE = .LGK ∨ CE = .LGX → A ≠ []) (m : ℝ → ℝ → Mid)
    (h : ∀ t p, switchT (TS.temperature t) ref.G (fillH (TS.temperature t) ref) (fillS (TS.temperature t) ref) ref.Cp ref.logK A Cp Tr CE
      = .ok (m t p)) : CarriesM m T P := by
  have hT0 := hT.ne'
  have h1 := Carries.const' hr.hG (T := T) (P := P)
  have h2 := carries_fillS ref hr T P hT0
  have h3 := carries_fillH ref hr T P
  have h4 := Carries.const' hr.hCp (T := T) (P := P)
  have h5 := Carries.const' hr.hlogK (T := T) (P := P)
  have l7 : A ≠ [] → (∀ t p, logK7 (TS.temperature t) (fillS (TS.temperature t) ref) (fillH (TS.temperature t) ref) A Cp = .ok (m t p)) →
      CarriesM m T P := by
    intro hA h
    have hl : A.length ≠ 0 := fun h => hA (List.length_eq_zero_iff.mp h)
    simp only [logK7, hl, false_and, if_false] at h
    split_ifs at h with h6 h7
    · exact absurd (h T P) (by simp)
    · obtain rfl : m = fun t p => _ := by
        funext t p
        exact (Res.ok.inj (h t p)).symm
      exact carries_mid7 _ _ T P hT
    · exact absurd (h T P) (by simp)
    · obtain rfl : m = fun t p => _ := by
        funext t p
        exact (Res.ok.inj (h t p)).symm
      exact carries_mid7 _ _ T P hT
  cases CE with
  | LGK => exact l7 (hA (Or.inl rfl)) h
  | LGX => exact l7 (hA (Or.inr rfl)) h
  | EK3 =>
    obtain rfl : m = fun t p => _ := by
      funext t p
      exact (Res.ok.inj (h t p)).symm
    constructor <;> dsimp only [mid3] <;> (try ops) <;> carries
    side
  | _ =>
    obtain rfl : m = fun t p => _ := by
      funext t p
      exact (Res.ok.inj (h t p)).symm
    constructor <;> dsimp only <;> (try ops) <;> carries
    side

/-- **C98, log K as a function of temperature.**  For every method, unless only heat-capacity coefficients are given for the methods with
coefficients, the results carry their derivatives wherever the enthalpy is not zero (at zero the code leaves A and U undefined). -/
theorem C98_logK_partial (ref : TPR) (hr : ConstR ref) (A Cp : List ℝ) (Tr T P : ℝ) (hT : 0 < T) (hTr : Tr ≠ 0) (CE : CorrT)
    (hA : CE = .LGK ∨ CE = .LGX → A ≠ []) (f : ℝ → ℝ → TPR) (hf : ∀ t p, logKfTEntry t p ref A Cp Tr CE = .ok (f t p))
    (hH : (f T P).H.val ≠ 0) : CarriesR f T P := by
  set CE' := if CE = .EK3 then determineMethod (fillH (TS.temperature T) ref) (fillS (TS.temperature T) ref) ref.Cp else CE with hCE
  have hA' : CE' = .LGK ∨ CE' = .LGX → A ≠ [] := by
    rw [hCE]
    split_ifs with h
    · intro h'
      exfalso
      simp only [determineMethod] at h'
      split_ifs at h' <;> simp at h'
    · exact hA
  have key : ∀ t p, ∃ m, switchT (TS.temperature t) ref.G (fillH (TS.temperature t) ref) (fillS (TS.temperature t) ref) ref.Cp ref.logK A Cp Tr CE'
      = .ok m ∧ f t p = finishLogK (TS.temperature t) (pbar p) ref.V m := by
    intro t p
    have h := hf t p
    simp only [logKfTEntry, logKfT, fill_method ref t T, ← hCE] at h
    cases hs : switchT (TS.temperature t) ref.G (fillH (TS.temperature t) ref) (fillS (TS.temperature t) ref) ref.Cp ref.logK A Cp Tr CE' with
    | ok m =>
      rw [hs] at h
      exact ⟨m, rfl, (Res.ok.inj h).symm⟩
    | ub => rw [hs] at h; exact absurd h (by simp)
    | throw => rw [hs] at h; exact absurd h (by simp)
  choose m hm1 hm2 using key
  obtain rfl : f = fun t p => finishLogK (TS.temperature t) (pbar p) ref.V (m t p) := by
    funext t p
    exact hm2 t p
  exact carries_finish ref hr m T P (carries_switch ref hr A Cp Tr T P hT hTr CE' hA' m hm1) hH

/-- Reference properties of a reaction, for the examples. -/
noncomputable def exReac : TPR :=
  { TPR.default with logK := exTS (-10), G := exTS 57000, H := exTS 50000, S := exTS (-20), V := exTS 1, Cp := exTS 30 }

lemma exReac_const : ConstR exReac := ⟨⟨rfl, rfl⟩, ⟨rfl, rfl⟩, ⟨rfl, rfl⟩, ⟨rfl, rfl⟩, ⟨rfl, rfl⟩, ⟨rfl, rfl⟩⟩

/-- The hypotheses of `C98_logK_partial` hold for a reaction with seven coefficients at 400 K; its enthalpy there is not zero. -/
example : ∃ f : ℝ → ℝ → TPR, (∀ t p, logKfTEntry t p exReac [1, 0, 100] [] 298.15 .LGK = .ok (f t p)) ∧ (f 400 1e7).H.val ≠ 0 := by
  refine ⟨fun t p => finishLogK (TS.temperature t) (pbar p) exReac.V
    (mid7 (TS.temperature t) (at' (resize 7 [1, 0, 100])) (at' (logKToCp (resize 7 [1, 0, 100])))), fun t p => ?_, ?_⟩
  · simp only [logKfTEntry, logKfT, switchT, logK7, resize, logKToCp]
    simp
    rfl
  · simp [finishLogK, mid7, at', resize, Rln10, Rgas, lgToLn]; norm_num

/-- **C98 refuted, log K with heat-capacity coefficients only.**  The coefficients of log K are then computed from the heat capacity at the
current temperature, as numbers, on every call.  With a constant heat capacity c the enthalpy returned is the constant reference enthalpy,
while the derivative it carries is c. -/
theorem C98_logK_refuted (ref : TPR) (hH : ref.H.has) (hS : ref.S.has) (c Tr T P : ℝ) (hT : 0 < T) (hc : c ≠ 0) (f : ℝ → ℝ → TPR)
    (hf : ∀ t p, logKfTEntry t p ref [] [c] Tr .LGK = .ok (f t p)) :
    (f T P).H.ddt = c ∧ ¬ HasDerivAt (fun t => (f t P).H.val) (f T P).H.ddt T := by
  have key : ∀ t, 0 < t → f t P = finishLogK (TS.temperature t) (pbar P) ref.V
      (mid7 (TS.temperature t) (at' (cpToLogK (TS.temperature t) ref.S ref.H (resize 5 [c]))) (at' (resize 5 [c]))) := by
    intro t ht
    have h := hf t P
    have l1 : (cpToLogK (TS.temperature t) ref.S ref.H (resize 5 [c])).length = 7 := rfl
    have l2 : (resize 5 [c]).length = 5 := rfl
    simp [logKfTEntry, logKfT, switchT, logK7, fillH, fillS, hH, hS, l1, l2] at h
    exact h.symm
  have R0 : Rln10 ≠ 0 := by norm_num [Rln10, Rgas, lgToLn]
  have hv : ∀ t, 0 < t → (f t P).H.val = ref.H.val := by
    intro t ht
    rw [key t ht]
    have := ht.ne'
    simp [finishLogK, mid7, cpToLogK, at', resize]
    field_simp
    ring
  have hd : (f T P).H.ddt = c := by
    rw [key T hT]
    have := hT.ne'
    simp only [finishLogK, mid7, TS.add_op, TS.sub_op, TS.mul_op, TS.div_op, TS.neg_op, TS.addL_op, TS.addR_op, TS.subL_op, TS.subR_op,
      TS.mulL_op, TS.mulR_op, TS.divL_op, TS.divR_op]
    simp [cpToLogK, at', resize, TS.ddt_powR, this]
    field_simp
  refine ⟨hd, fun h => hc ?_⟩
  rw [hd] at h
  have h2 : HasDerivAt (fun t => (f t P).H.val) 0 T :=
    (hasDerivAt_const T ref.H.val).congr_of_eventuallyEq ((lt_mem_nhds hT).mono fun t ht => hv t ht)
  exact h.unique h2

/-- The hypotheses of `C98_logK_refuted` hold. -/
example : exReac.H.has ∧ exReac.S.has ∧ ∀ t p, ∃ f, logKfTEntry t p exReac [] [30] 298.15 .LGK = .ok f := by
  have hH : exReac.H.has := by simp [exReac, exTS, TS.has]
  have hS : exReac.S.has := by simp [exReac, exTS, TS.has]
  refine ⟨hH, hS, fun t p => ?_⟩
  have l1 : (cpToLogK (TS.temperature t) exReac.S exReac.H (resize 5 [30])).length = 7 := rfl
  have l2 : (resize 5 [(30 : ℝ)]).length = 5 := rfl
  simp [logKfTEntry, logKfT, switchT, logK7, fillH, fillS, hH, hS, l1, l2]

end ThermoFun

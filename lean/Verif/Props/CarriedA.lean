import Verif.Props.CarriedS

/-! Theorems about the derivatives carried by the models of Holland and Powell and of Akinfiev and Diamond (C98, continued). -/

namespace ThermoFun

/-! ### Holland and Powell -/

lemma carries_log_ratio (wpr : Solv) (wp : ℝ → ℝ → Solv) (T P : ℝ) (hρ : 0 < (wp T P).density.val) (hr : 0 < wpr.density.val)
    (hw : CarriesW wp T P) : Carries (fun t p => TS.log ((wp t p).density / (1000 : ℝ) / (wpr.density.val / 1000 : ℝ))) T P := by
  have h1 := hw.hρ
  have s1 : ((wp T P).density / (1000 : ℝ) / (wpr.density.val / 1000 : ℝ)).val ≠ 0 := by
    simp only [TS.op_val_divR]; positivity
  carries

/-- **C98, Holland and Powell, the part that holds.**  Above 500 K all results carry their derivatives.  Below, T' is a plain number equal to
T: the temperature derivative carried by G exceeds the derivative of its value by K ln(ρ/ρ₂₉₈)/T. -/
theorem C98_hp98_partial (T298 : ℝ) (ref : TPS) (b : ℝ) (rest : List ℝ) (wpr : Solv) (wp : ℝ → ℝ → Solv) (T P : ℝ) (hT : 0 < T)
    (hρ : 0 < (wp T P).density.val) (hr : 0 < wpr.density.val) (hw : CarriesW wp T P) (f : ℝ → ℝ → TPS)
    (hf : ∀ t p, hp98Entry t p T298 ref (b :: rest) wpr (wp t p) = .ok (f t p)) :
    (500 < T → CarriesS f T P) ∧
    (T < 500 → HasDerivAt (fun t => (f t P).G.val) ((f T P).G.ddt - (ref.Cp.val - T298 * b) / (T298 * wpr.dAldT.val)
      * Real.log (((wp T P).density.val / 1000) / (wpr.density.val / 1000)) / T) T) := by
  have hl := carries_log_ratio wpr wp T P hρ hr hw
  obtain ⟨h1, h2, h3, h4⟩ := hw
  obtain rfl : f = fun t p => _ := by
    funext t p
    exact (Res.ok.inj (hf t p)).symm
  clear hf
  refine ⟨fun h5 => ?_, fun h5 => ?_⟩
  · have e : ∀ t, 500 < t → hp98Tprime (TS.temperature t) = 500 := fun t ht => by rw [hp98Tprime_eq]; exact if_neg (not_le.mpr ht)
    have key : ∀ (y : ℝ → ℝ → TS), Carries y T P → Carries (fun t p => y t p / hp98Tprime (TS.temperature t)) T P := by
      intro y hy
      have := hy.divR 500
      exact this.congr (by rw [e T h5]) ((lt_mem_nhds h5).mono fun t ht => by rw [e t ht]) (.of_forall fun p => by rw [e T h5])
    have key2 : ∀ (c : ℝ) (y : ℝ → ℝ → TS), Carries y T P → Carries (fun t p => y t p / (c * hp98Tprime (TS.temperature t))) T P := by
      intro c y hy
      have := hy.divR (c * 500)
      exact this.congr (by rw [e T h5]) ((lt_mem_nhds h5).mono fun t ht => by rw [e t ht]) (.of_forall fun p => by rw [e T h5])
    constructor <;> dsimp only [TPS.default]
    all_goals
      repeat' first
        | assumption
        | exact Carries.temp | exact Carries.pres | exact Carries.default
        | apply key | apply key2
        | apply Carries.add | apply Carries.sub | apply Carries.mul
        | apply Carries.addL | apply Carries.addR | apply Carries.neg | apply Carries.subL | apply Carries.subR
        | apply Carries.mulL | apply Carries.mulR | apply Carries.divR
        | apply Carries.powR
    all_goals exact Or.inr (by norm_num)
  · have e : ∀ t, t < 500 → hp98Tprime (TS.temperature t) = t := fun t ht => by rw [hp98Tprime_eq]; exact if_pos ht.le
    -- the value without T/T', and its carried derivative
    have g : Carries (fun t p => ref.G.val - (TS.temperature t - T298) * ref.S.val + pbar p * ref.V.val
        + b * (T298 * TS.temperature t - (T298 ^ 2 / 2 : ℝ) - TS.powR (TS.temperature t) 2 / (2 : ℝ))
        + ((ref.Cp.val - T298 * b) / (T298 * wpr.dAldT.val))
          * (wpr.Alpha.val * (TS.temperature t - T298) - (wpr.Beta.val * 1e5) * pbar p
            + TS.log ((wp t p).density / (1000 : ℝ) / (wpr.density.val / 1000 : ℝ)))) T P := by
      carries
      exact Or.inr (by norm_num)
    have hT0 := hT.ne'
    refine (g.ddt.congr_of_eventuallyEq (((gt_mem_nhds h5).and (lt_mem_nhds hT)).mono fun t ht => ?_)).congr_deriv ?_
    · have := ht.2.ne'
      simp only [e t ht.1]
      simp [this]
    · dsimp only
      simp only [e T h5]
      simp [hT0]
      ring

/-- **C98 refuted, Holland and Powell below 500 K.**  T' is there a plain number equal to T, so the temperature derivative carried by G is too
large by K ln(ρ/ρ₂₉₈)/T, wherever the density differs from the reference density and the factor K is not zero. -/
theorem C98_hp98_refuted (T298 : ℝ) (ref : TPS) (b : ℝ) (rest : List ℝ) (wpr : Solv) (wp : ℝ → ℝ → Solv) (T P : ℝ) (hT : 0 < T) (h5 : T < 500)
    (hρ : 0 < (wp T P).density.val) (hr : 0 < wpr.density.val) (hw : CarriesW wp T P) (hne : (wp T P).density.val ≠ wpr.density.val)
    (hK : (ref.Cp.val - T298 * b) / (T298 * wpr.dAldT.val) ≠ 0) (f : ℝ → ℝ → TPS)
    (hf : ∀ t p, hp98Entry t p T298 ref (b :: rest) wpr (wp t p) = .ok (f t p)) :
    ¬ HasDerivAt (fun t => (f t P).G.val) (f T P).G.ddt T := by
  intro h
  have h2 := h.unique ((C98_hp98_partial T298 ref b rest wpr wp T P hT hρ hr hw f hf).2 h5)
  have hlog : Real.log (((wp T P).density.val / 1000) / (wpr.density.val / 1000)) ≠ 0 := by
    apply Real.log_ne_zero_of_pos_of_ne_one (by positivity)
    intro h1
    apply hne
    field_simp at h1
    exact h1
  exact (div_ne_zero (mul_ne_zero hK hlog) hT.ne') (by linarith)

/-- The hypotheses hold at 400 K (and those of the first part at 600 K). -/
example : ∃ f : ℝ → ℝ → TPS, (∀ t p, hp98Entry t p 298.15 exRef [0.1] (exSolv3 300 0) (exSolv3 t p) = .ok (f t p)) ∧ CarriesS f 600 1e7 ∧
    ¬ HasDerivAt (fun t => (f t 1e7).G.val) (f 400 1e7).G.ddt 400 := by
  have hpos : ∀ t p, 0 < (exSolv3 t p).density.val := fun t p => by simp [exSolv3]; positivity
  refine ⟨fun t p => _, fun t p => rfl, (C98_hp98_partial 298.15 exRef 0.1 [] (exSolv3 300 0) exSolv3 600 1e7 (by norm_num) (hpos _ _) (hpos _ _)
    (exSolv3_ok _ _) _ fun t p => rfl).1 (by norm_num),
    C98_hp98_refuted 298.15 exRef 0.1 [] (exSolv3 300 0) exSolv3 400 1e7 (by norm_num) (by norm_num) (hpos _ _) (hpos _ _)
    (exSolv3_ok _ _) ?_ ?_ _ fun t p => rfl⟩
  · intro h
    simp [exSolv3, val_pbar] at h
    norm_num at h
  · simp [exSolv3, exRef, exTS, val_assign]
    norm_num

/-! ### Akinfiev and Diamond -/

/-- G, S and Cp carry their derivatives. -/
structure CarriesGS (f : ℝ → ℝ → TPS) (T P : ℝ) : Prop where
  hG : Carries (fun t p => (f t p).G) T P
  hS : Carries (fun t p => (f t p).S) T P
  hCp : Carries (fun t p => (f t p).Cp) T P

lemma carries_adAt (x a b : ℝ) (w ig : ℝ → ℝ → TPS) (wp : ℝ → ℝ → Solv) (T P : ℝ) (hT : 0 < T) (hρ : 0 < (wp T P).density.val)
    (hw : CarriesGS w T P) (hi : CarriesGS ig T P) (hs : CarriesW wp T P) :
    Carries (fun t p => (adAt (TS.temperature t) x a b (w t p) (ig t p) (wp t p)).G) T P ∧
    Carries (fun t p => (adAt (TS.temperature t) x a b (w t p) (ig t p) (wp t p)).S) T P ∧
    Carries (fun t p => (adAt (TS.temperature t) x a b (w t p) (ig t p) (wp t p)).Cp) T P ∧
    Carries (fun t p => (adAt (TS.temperature t) x a b (w t p) (ig t p) (wp t p)).V) T P ∧
    Carries (fun t p => (adAt (TS.temperature t) x a b (w t p) (ig t p) (wp t p)).H) T P := by
  obtain ⟨w1, w2, w3⟩ := hw
  obtain ⟨i1, i2, i3⟩ := hi
  obtain ⟨s1, s2, s3, s4⟩ := hs
  have hT0 := hT.ne'
  have hR : Rgas ≠ 0 := by norm_num [Rgas]
  refine ⟨?_, ?_, ?_, ?_, ?_⟩ <;> dsimp only [adAt, adIncrements]
  all_goals carries
  all_goals first
    | assumption
    | exact Or.inl hT0
    | (refine Or.inr ?_; norm_num; done)
    | exact (Real.exp_pos _).ne'
    | (simp only [TS.op_val_mul, TS.op_val_div, TS.op_val_divL, TS.op_val_divR, TS.val_temperature, val_assign, TS.val_powR]; positivity)
    | (refine Or.inl ?_; simp only [TS.op_val_mul, TS.op_val_div, TS.op_val_divL, TS.op_val_divR, TS.val_temperature, val_assign]; positivity)

/-- What the Akinfiev–Diamond model is given carries its derivatives and is consistent, at the state asked for and at the reference state of
298.15 K and pressure `Pr`. -/
structure CarriesAD (w ig : ℝ → ℝ → TPS) (wp : ℝ → ℝ → Solv) (T P : ℝ) : Prop where
  hw : CarriesGS w T P
  hi : CarriesGS ig T P
  hs : CarriesW wp T P

/-- **C98, Akinfiev and Diamond, the part that holds.**  With water that carries its derivatives and is consistent at its reference state
298.15 K and `Pr`, the results G, V and Cp carry their derivatives.  The temperature derivatives carried by S and H differ from those of the
values by exactly the heat capacity of the reference increment, divided by 298.15 for S: the increments at the reference state, which are
subtracted, carry derivatives although they do not depend on T. -/
theorem C98_ad_partial (M T P Pr x a b : ℝ) (rest : List ℝ) (tps w ig : ℝ → ℝ → TPS) (wp : ℝ → ℝ → Solv)
    (hT : 0 < T) (hρ : 0 < (wp T P).density.val) (h : CarriesAD w ig wp T P) (h0 : CarriesAD w ig wp 298.15 Pr)
    (hc : ADWater M w ig wp 298.15 Pr) (ht : CarriesS tps T P) (htG : (tps T P).G.ddp = 0) (htS : (tps T P).S.ddp = 0)
    (htC : (tps T P).Cp.ddp = 0) (f : ℝ → ℝ → TPS)
    (hf : ∀ t p, akinfievDiamondEntry t p (x :: a :: b :: rest) (tps t p) (w t p) (ig t p) (wp t p) (w 298.15 Pr) (ig 298.15 Pr) (wp 298.15 Pr)
      = .ok (f t p)) :
    let c0 := (adAt (TS.temperature 298.15) x a b (w 298.15 Pr) (ig 298.15 Pr) (wp 298.15 Pr)).Cp.val
    Carries (fun t p => (f t p).G) T P ∧ Carries (fun t p => (f t p).V) T P ∧ Carries (fun t p => (f t p).Cp) T P ∧
    HasDerivAt (fun t => (f t P).S.val) ((f T P).S.ddt + c0 / 298.15) T ∧ HasDerivAt (fun p => (f T p).S.val) (f T P).S.ddp P ∧
    HasDerivAt (fun t => (f t P).H.val) ((f T P).H.ddt + c0) T := by
  intro c0
  have hr : 0 < (wp 298.15 Pr).density.val := hc.solv.pos
  obtain ⟨e1, e2, e3, e4, e5⟩ := carries_adAt x a b w ig wp T P hT hρ h.hw h.hi h.hs
  obtain ⟨r1, r2, r3, r4, r5⟩ := carries_adAt x a b w ig wp 298.15 Pr (by norm_num) hr h0.hw h0.hi h0.hs
  -- the derivatives of the increments at the reference state
  have hρT : HasDerivAt (fun t => (wp t Pr).density.val / 1000) (-((wp 298.15 Pr).Alpha.val * ((wp 298.15 Pr).density.val / 1000))) 298.15 :=
    (hc.solv.expansion.div_const 1000).congr_deriv (by ring)
  have hρ0 : 0 < (wp 298.15 Pr).density.val / 1000 := by positivity
  have hg : HasDerivAt (fun t => (w t Pr).G.val - (ig t Pr).G.val) (-((w 298.15 Pr).S.val - (ig 298.15 Pr).S.val)) 298.15 :=
    (hc.wS.fun_sub hc.igS).congr_deriv (by ring)
  have hs : HasDerivAt (fun t => (w t Pr).S.val - (ig t Pr).S.val) (((w 298.15 Pr).Cp.val - (ig 298.15 Pr).Cp.val) / 298.15) 298.15 :=
    (hc.wCp.fun_sub hc.igCp).congr_deriv (by ring)
  have v0 := adAt_vals 298.15 x a b (w 298.15 Pr) (ig 298.15 Pr) (wp 298.15 Pr) (by norm_num) hr
  have v := fun (t : ℝ) (ht : 0 < t ∧ 0 < (wp t Pr).density.val) => adAt_vals t x a b (w t Pr) (ig t Pr) (wp t Pr) ht.1 ht.2
  dsimp only at v0 v
  have hev : ∀ᶠ t in nhds (298.15 : ℝ), 0 < t ∧ 0 < (wp t Pr).density.val :=
    (lt_mem_nhds (by norm_num)).and (hc.solv.expansion.continuousAt.eventually (lt_mem_nhds hc.solv.pos))
  have dG0 : (adAt (TS.temperature 298.15) x a b (w 298.15 Pr) (ig 298.15 Pr) (wp 298.15 Pr)).G.ddt =
      -(adAt (TS.temperature 298.15) x a b (w 298.15 Pr) (ig 298.15 Pr) (wp 298.15 Pr)).S.val := by
    refine r1.ddt.unique ?_
    refine ((adG_T (x := x) (a := a) (b := b) (T := 298.15) (r := fun t => (wp t Pr).density.val / 1000) (by norm_num) hρ0 hρT hg).congr_of_eventuallyEq (hev.mono fun t ht => ?_)).congr_deriv ?_
    · simp only [(v t ht).1]
    · rw [v0.2.1]
  have dS0 : (adAt (TS.temperature 298.15) x a b (w 298.15 Pr) (ig 298.15 Pr) (wp 298.15 Pr)).S.ddt = c0 / 298.15 := by
    refine r2.ddt.unique ?_
    refine ((adS_T (x := x) (a := a) (b := b) (T := 298.15) (r := fun t => (wp t Pr).density.val / 1000) (by norm_num) hρ0 rfl hρT hs hc.solv.expansionT).congr_of_eventuallyEq
      (hev.mono fun t ht => ?_)).congr_deriv ?_
    · simp only [(v t ht).2.1]
    · simp only [c0]; rw [v0.2.2.1]
  have dH0 : (adAt (TS.temperature 298.15) x a b (w 298.15 Pr) (ig 298.15 Pr) (wp 298.15 Pr)).H.ddt = c0 := by
    have : (adAt (TS.temperature 298.15) x a b (w 298.15 Pr) (ig 298.15 Pr) (wp 298.15 Pr)).H =
        (adAt (TS.temperature 298.15) x a b (w 298.15 Pr) (ig 298.15 Pr) (wp 298.15 Pr)).G
        + TS.temperature 298.15 * (adAt (TS.temperature 298.15) x a b (w 298.15 Pr) (ig 298.15 Pr) (wp 298.15 Pr)).S := rfl
    rw [this]
    simp only [TS.op_ddt_add, TS.op_ddt_mul, dG0, dS0, TS.ddt_temperature, TS.val_temperature]
    ring
  obtain rfl : f = fun t p => _ := by
    funext t p
    exact (Res.ok.inj (hf t p)).symm
  clear hf
  dsimp only
  generalize hE : adAt (TS.temperature 298.15) x a b (w 298.15 Pr) (ig 298.15 Pr) (wp 298.15 Pr) = E at *
  have hid := hasDerivAt_id' T
  refine ⟨⟨?_, ?_⟩, e4, ⟨?_, ?_⟩, ?_, ?_, ?_⟩
  · simp only [TS.op_val_addR, TS.op_val_add, TS.val_subAssign, TS.op_ddt_addR, TS.op_ddt_add, TS.ddt_subAssign, TS.val_temperature]
    refine (((ht.hG.ddt.sub_const E.G.val).fun_add e1.ddt).fun_add ((hid.sub_const 298.15).const_mul E.S.val)).congr_deriv ?_
    rw [dG0]; ring
  · simp only [TS.op_val_addR, TS.op_val_add, TS.val_subAssign, TS.op_ddp_addR, TS.op_ddp_add, TS.val_temperature]
    refine (((ht.hG.ddp.sub_const E.G.val).fun_add e1.ddp).add_const _).congr_deriv ?_
    rw [htG]
  · simp only [TS.op_val_add, TS.op_ddt_add]
    exact ht.hCp.ddt.fun_add e3.ddt
  · simp only [TS.op_val_add, TS.op_ddp_add]
    refine (ht.hCp.ddp.fun_add e3.ddp).congr_deriv ?_
    rw [htC]
  · simp only [TS.op_val_add, TS.val_subAssign, TS.op_ddt_add, TS.ddt_subAssign]
    refine ((ht.hS.ddt.sub_const E.S.val).fun_add e2.ddt).congr_deriv ?_
    rw [dS0]; ring
  · simp only [TS.op_val_add, TS.val_subAssign, TS.op_ddp_add]
    refine ((ht.hS.ddp.sub_const E.S.val).fun_add e2.ddp).congr_deriv ?_
    rw [htS]
  · simp only [TS.op_val_add, TS.val_subAssign, TS.op_ddt_add, TS.ddt_subAssign]
    refine ((ht.hH.ddt.sub_const E.H.val).fun_add e5.ddt).congr_deriv ?_
    rw [dH0]; ring

/-- **C98 refuted, Akinfiev and Diamond.**  Whenever the heat capacity of the reference increment is not zero, the temperature derivatives
carried by S and by H are not those of their values, at any state. -/
theorem C98_ad_refuted (M T P Pr x a b : ℝ) (rest : List ℝ) (tps w ig : ℝ → ℝ → TPS) (wp : ℝ → ℝ → Solv)
    (hT : 0 < T) (hρ : 0 < (wp T P).density.val) (h : CarriesAD w ig wp T P) (h0 : CarriesAD w ig wp 298.15 Pr)
    (hc : ADWater M w ig wp 298.15 Pr) (ht : CarriesS tps T P) (htG : (tps T P).G.ddp = 0) (htS : (tps T P).S.ddp = 0)
    (htC : (tps T P).Cp.ddp = 0) (f : ℝ → ℝ → TPS)
    (hf : ∀ t p, akinfievDiamondEntry t p (x :: a :: b :: rest) (tps t p) (w t p) (ig t p) (wp t p) (w 298.15 Pr) (ig 298.15 Pr) (wp 298.15 Pr)
      = .ok (f t p))
    (hne : (adAt (TS.temperature 298.15) x a b (w 298.15 Pr) (ig 298.15 Pr) (wp 298.15 Pr)).Cp.val ≠ 0) :
    ¬ HasDerivAt (fun t => (f t P).S.val) (f T P).S.ddt T ∧ ¬ HasDerivAt (fun t => (f t P).H.val) (f T P).H.ddt T := by
  obtain ⟨-, -, -, g1, -, g2⟩ := C98_ad_partial M T P Pr x a b rest tps w ig wp hT hρ h h0 hc ht htG htS htC f hf
  refine ⟨fun h' => ?_, fun h' => ?_⟩
  · have := h'.unique g1
    exact (div_ne_zero hne (by norm_num : (298.15 : ℝ) ≠ 0)) (by linarith)
  · have := h'.unique g2
    exact hne (by linarith)

/-- A solvent with no compressibility that carries its derivatives: ρ = 1000 exp(-(T - 300)/1000). -/
noncomputable def exSolv4 (t _p : ℝ) : Solv :=
  { density := (1000 : ℝ) * TS.exp ((-1 / 1000 : ℝ) * (TS.temperature t - (300 : ℝ)))
    Alpha := TS.assign TS.default (1 / 1000)
    Beta := TS.assign TS.default 0
    dAldT := TS.assign TS.default 0 }

/-- Water for the example, with G = P V - T²/2. -/
noncomputable def exWater4 (t p : ℝ) : TPS :=
  { TPS.default with
    G := (18 / 1e1 : ℝ) * pbar p * TS.exp ((1 / 1000 : ℝ) * (TS.temperature t - (300 : ℝ))) - TS.temperature t * TS.temperature t / (2 : ℝ)
    S := TS.temperature t - (18 / 1e4 : ℝ) * pbar p * TS.exp ((1 / 1000 : ℝ) * (TS.temperature t - (300 : ℝ)))
    Cp := TS.temperature t - (18 / 1e7 : ℝ) * TS.temperature t * pbar p * TS.exp ((1 / 1000 : ℝ) * (TS.temperature t - (300 : ℝ))) }

lemma exAD4 (T P : ℝ) : CarriesAD exWater4 (fun _ _ => TPS.default) exSolv4 T P := by
  refine ⟨⟨?_, ?_, ?_⟩, ⟨.default, .default, .default⟩, ⟨?_, .assign _, .assign _, .assign _⟩⟩ <;> dsimp only [exWater4, exSolv4] <;> carries

lemma exAD4_ok (T P : ℝ) (hT : 0 < T) : ADWater 18 exWater4 (fun _ _ => TPS.default) exSolv4 T P := by
  have hid := hasDerivAt_id' T
  have he : HasDerivAt (fun t : ℝ => Real.exp (1 / 1000 * (t - 300))) (Real.exp (1 / 1000 * (T - 300)) * (1 / 1000)) T :=
    (((hid.sub_const 300).const_mul (1 / 1000)).exp).congr_deriv (by ring)
  have he' : HasDerivAt (fun t : ℝ => Real.exp (-1 / 1000 * (t - 300))) (Real.exp (-1 / 1000 * (T - 300)) * (-1 / 1000)) T :=
    (((hid.sub_const 300).const_mul (-1 / 1000)).exp).congr_deriv (by ring)
  have hv : ∀ x : TS, (TS.exp x).val = Real.exp x.val := fun x => rfl
  refine ⟨⟨?_, ?_, ?_, ?_⟩, ?_, ?_, ?_, ?_, ?_, ?_⟩ <;>
    simp only [exWater4, exSolv4, TS.op_val_mulL, TS.op_val_mul, TS.op_val_sub, TS.op_val_subR, TS.op_val_divR, TS.val_temperature, val_pbar, hv,
      val_assign, TPS.default]
  · positivity
  · exact (he'.const_mul 1000).congr_deriv (by ring)
  · exact (hasDerivAt_const P _).congr_deriv (by ring)
  · exact hasDerivAt_const _ _
  · exact ((he.const_mul (18 / 1e1 * (P / 1e5))).fun_sub ((hid.fun_mul hid).div_const 2)).congr_deriv (by norm_num; ring)
  · refine (hid.fun_sub (he.const_mul (18 / 1e4 * (P / 1e5)))).congr_deriv ?_
    field_simp
    norm_num
    ring
  · exact (hasDerivAt_const T _).congr_deriv (by simp [TS.default, TS.ofVal])
  · exact (hasDerivAt_const T _).congr_deriv (by simp [TS.default, TS.ofVal])
  · refine (((((hasDerivAt_id' P).div_const 1e5).const_mul (18 / 1e1)).mul_const _).sub_const _).congr_deriv ?_
    have : Real.exp (1 / 1000 * (T - 300)) = (Real.exp (-1 / 1000 * (T - 300)))⁻¹ := by
      rw [← Real.exp_neg]; congr 1; ring
    rw [this]
    have := (Real.exp_pos (-1 / 1000 * (T - 300))).ne'
    field_simp
    norm_num
  · exact hasDerivAt_const _ _

/-- The hypotheses of the two theorems hold at 400 K with ξ = a = b = 0: the increment is that of water, whose heat capacity is not zero. -/
example : ∃ f : ℝ → ℝ → TPS, (∀ t p, akinfievDiamondEntry t p [0, 0, 0] TPS.default (exWater4 t p) TPS.default (exSolv4 t p) (exWater4 298.15 0)
      TPS.default (exSolv4 298.15 0) = .ok (f t p)) ∧
    Carries (fun t p => (f t p).G) 400 1e7 ∧ ¬ HasDerivAt (fun t => (f t 1e7).S.val) (f 400 1e7).S.ddt 400 := by
  have hp : ∀ t p, 0 < (exSolv4 t p).density.val := fun t p => by
    simp [exSolv4]; positivity
  have hne : (adAt (TS.temperature 298.15) 0 0 0 (exWater4 298.15 0) TPS.default (exSolv4 298.15 0)).Cp.val ≠ 0 := by
    rw [(adAt_vals 298.15 0 0 0 (exWater4 298.15 0) TPS.default (exSolv4 298.15 0) (by norm_num) (hp _ _)).2.2.1]
    simp [adCp, exWater4, TPS.default, val_pbar, TS.default, TS.ofVal]
    norm_num
  have ht : CarriesS (fun _ _ => TPS.default) 400 1e7 :=
    ⟨.default, .default, .default, .default, .default, .default, .default, .default⟩
  refine ⟨fun t p => _, fun t p => rfl, ?_, ?_⟩
  · exact (C98_ad_partial 18 400 1e7 0 0 0 0 [] (fun _ _ => TPS.default) exWater4 (fun _ _ => TPS.default) exSolv4 (by norm_num) (hp _ _)
      (exAD4 _ _) (exAD4 _ _) (exAD4_ok _ _ (by norm_num)) ht rfl rfl rfl _ fun t p => rfl).1
  · exact (C98_ad_refuted 18 400 1e7 0 0 0 0 [] (fun _ _ => TPS.default) exWater4 (fun _ _ => TPS.default) exSolv4 (by norm_num) (hp _ _)
      (exAD4 _ _) (exAD4 _ _) (exAD4_ok _ _ (by norm_num)) ht rfl rfl rfl _ (fun t p => rfl) hne).1

end ThermoFun

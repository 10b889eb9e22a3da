import Verif.Lemmas.TSVal

/-!
Properties C21-C25 of the temperature corrections of reactions.
-/

set_option linter.unusedSimpArgs false

namespace ThermoFun

/-- What thermodynamics requires of reaction properties `f` as functions of temperature, at `T`. -/
structure Consistent (f : ℝ → TPR) (T : ℝ) : Prop where
  /-- G = H - T S -/
  gibbs : (f T).G.val = (f T).H.val - T * (f T).S.val
  /-- G = -R T ln K -/
  equilibrium : (f T).G.val = -(Rgas * T * (f T).lnK.val)
  /-- dG/dT = -S -/
  entropy : HasDerivAt (fun t => (f t).G.val) (-(f T).S.val) T
  /-- dH/dT = Cp -/
  heatCapacity : HasDerivAt (fun t => (f t).H.val) (f T).Cp.val T
  /-- d(ln K)/dT = H/(R T²) (van 't Hoff) -/
  vantHoff : HasDerivAt (fun t => (f t).lnK.val) ((f T).H.val / (Rgas * T ^ 2)) T
  /-- dS/dT = Cp/T -/
  entropySlope : HasDerivAt (fun t => (f t).S.val) ((f T).Cp.val / T) T

lemma Rgas_pos : 0 < Rgas := by norm_num [Rgas]
lemma lgToLn_pos : 0 < lgToLn := by norm_num [lgToLn]
lemma Rln10_pos : 0 < Rln10 := mul_pos Rgas_pos lgToLn_pos

lemma resize_length (n : Nat) (l : List ℝ) : (resize n l).length = n := by
  simp [resize]

lemma at'_resize (n : Nat) (l : List ℝ) (i : Nat) (h : i < n) : at' (resize n l) i = at' l i := by
  simp only [at', resize, List.getD_eq_getElem?_getD, List.getElem?_take, h, if_true]
  by_cases hl : i < l.length
  · rw [List.getElem?_append_left hl]
  · rw [List.getElem?_append_right (by omega)]
    rw [List.getElem?_replicate, if_pos (by omega), List.getElem?_eq_none (by omega)]
    rfl

lemma at'_cons0 (a : ℝ) (l : List ℝ) : at' (a :: l) 0 = a := rfl
lemma at'_cons1 (a b : ℝ) (l : List ℝ) : at' (a :: b :: l) 1 = b := rfl
lemma at'_cons2 (a b c : ℝ) (l : List ℝ) : at' (a :: b :: c :: l) 2 = c := rfl
lemma at'_cons3 (a b c d : ℝ) (l : List ℝ) : at' (a :: b :: c :: d :: l) 3 = d := rfl
lemma at'_cons4 (a b c d e : ℝ) (l : List ℝ) : at' (a :: b :: c :: d :: e :: l) 4 = e := rfl

/-- Values reported for logK(T) coefficients without Cp coefficients. -/
lemma entry_logK (T P : ℝ) (ref : TPR) (A : List ℝ) (hA : A ≠ []) (Tr : ℝ) (CE : CorrT) (hCE : CE = .LGK ∨ CE = .LGX) :
    ∃ r, logKfTEntry T P ref A [] Tr CE = .ok r ∧
      r.logK.val = at' A 0 + at' A 1 * T + at' A 2 / T + at' A 3 * Real.log T + at' A 4 / (T * T) + at' A 5 * (T * T)
        + at' A 6 / Real.sqrt T ∧
      r.lnK.val = lgToLn * r.logK.val ∧
      r.G.val = -(Rln10 * T * r.logK.val) ∧
      r.H.val = Rln10 * (at' A 1 * (T * T) - at' A 2 + at' A 3 * T - 2 * at' A 4 / T + 2 * at' A 5 * (T * T * T)
        - at' A 6 / 2 * Real.sqrt T) ∧
      r.S.val = Rln10 * (at' A 0 + 2 * at' A 1 * T + at' A 3 * (1 + Real.log T) - at' A 4 / (T * T) + 3 * at' A 5 * (T * T)
        + at' A 6 / 2 / Real.sqrt T) ∧
      r.Cp.val = Rln10 * (at' A 3 + 2 * at' A 1 * T + 2 * at' A 4 / (T * T) + 6 * at' A 5 * (T * T)
        - at' A 6 / 4 / Real.sqrt T) := by
  have hlen : ¬ (A.length = 0) := by simpa using hA
  have e1 : ∀ i < 7, at' (resize 7 A) i = at' A i := fun i h => at'_resize 7 A i h
  have hsq := TS.val_powR_half (TS.temperature T)
  refine ⟨finishLogK (TS.temperature T) (TS.divAssignD (TS.pressure P) 1e5) ref.V
    (mid7 (TS.temperature T) (at' (resize 7 A)) (at' (logKToCp (resize 7 A)))), ?_, ?_⟩
  · have h7 : ∀ s h, logK7 (TS.temperature T) s h A [] =
        .ok (mid7 (TS.temperature T) (at' (resize 7 A)) (at' (logKToCp (resize 7 A)))) := by
      intro s h
      simp [logK7, hlen, Nat.pos_of_ne_zero hlen, hA, List.length_pos_iff, resize_length, logKToCp]
    rcases hCE with rfl | rfl <;> simp [logKfTEntry, logKfT, switchT, h7]
  · simp only [finishLogK, mid7, TS.val_add, TS.val_addL, TS.val_mulL, TS.val_mulR, TS.val_divL, TS.val_mul, TS.val_log,
      TS.val_neg, TS.val_sub, TS.val_subR, hsq, TS.val_temperature, e1, Nat.reduceLT]
    refine ⟨by simp [e1], trivial, ?_, ?_, ?_, ?_⟩
    · rw [Rln10]; ring
    · simp only [show (2.0 : ℝ) = 2 by norm_num, show (0.5 : ℝ) = 1 / 2 by norm_num]; ring
    · simp only [show (2.0 : ℝ) = 2 by norm_num, show (0.5 : ℝ) = 1 / 2 by norm_num, show (3.0 : ℝ) = 3 by norm_num,
        show (1.0 : ℝ) = 1 by norm_num]; ring
    · simp only [logKToCp, at'_cons0, at'_cons1, at'_cons2, at'_cons3, at'_cons4, e1, Nat.reduceLT]
      norm_num; ring

/-- **C21.** A reaction given by logK(T) coefficients only (any number, missing ones are zero) is reported with consistent G, H, S,
Cp and K at every positive temperature. -/
theorem C21_consistent (P : ℝ) (ref : TPR) (A : List ℝ) (hA : A ≠ []) (Tr : ℝ) (CE : CorrT)
    (hCE : CE = .LGK ∨ CE = .LGX) :
    ∃ f : ℝ → TPR, (∀ T, logKfTEntry T P ref A [] Tr CE = .ok (f T)) ∧ ∀ T > 0, Consistent f T := by
  choose f hf h1 h2 h3 h4 h5 h6 using fun T => entry_logK T P ref A hA Tr CE hCE
  refine ⟨f, hf, fun T hT => ?_⟩
  have hs : 0 < Real.sqrt T := Real.sqrt_pos.mpr hT
  have hss : Real.sqrt T * Real.sqrt T = T := Real.mul_self_sqrt hT.le
  have hR := Rln10_pos.ne'
  have hid := hasDerivAt_id' T
  have hlog := Real.hasDerivAt_log hT.ne'
  have hsqrt := Real.hasDerivAt_sqrt hT.ne'
  have hTT := hid.mul hid
  have hTne := hT.ne'
  have hlg : HasDerivAt (fun t => (f t).logK.val) ((f T).H.val / (Rln10 * T ^ 2)) T := by
    simp only [h1]
    have := ((((((hasDerivAt_const T (at' A 0)).add (hid.const_mul (at' A 1))).add ((hasDerivAt_const T (at' A 2)).div hid hTne)).add
      (hlog.const_mul (at' A 3))).add ((hasDerivAt_const T (at' A 4)).div hTT (mul_pos hT hT).ne')).add
      (hTT.const_mul (at' A 5))).add ((hasDerivAt_const T (at' A 6)).div hsqrt hs.ne')
    refine this.congr_deriv ?_
    rw [h4]
    generalize Real.sqrt T = s at *
    subst hss
    simp only [Pi.mul_apply]
    field_simp
    ring
  have hlnK : HasDerivAt (fun t => (f t).lnK.val) ((f T).H.val / (Rgas * T ^ 2)) T := by
    simp only [h2]
    refine (hlg.const_mul lgToLn).congr_deriv ?_
    rw [Rln10]
    have := Rgas_pos.ne'; have := lgToLn_pos.ne'
    field_simp
  have hG : HasDerivAt (fun t => (f t).G.val) (-(f T).S.val) T := by
    simp only [h3]
    have := ((hid.const_mul Rln10).mul hlg).neg
    refine this.congr_deriv ?_
    rw [h4, h5, h1]
    generalize Real.sqrt T = s at *
    subst hss
    field_simp
    ring
  have hS : HasDerivAt (fun t => (f t).S.val) ((f T).Cp.val / T) T := by
    simp only [h5]
    have := (((((((hasDerivAt_const T (at' A 0)).add (hid.const_mul (2 * at' A 1)))).add
      ((hlog.const_add 1).const_mul (at' A 3))).sub ((hasDerivAt_const T (at' A 4)).div hTT (mul_pos hT hT).ne')).add
      (hTT.const_mul (3 * at' A 5))).add ((hasDerivAt_const T (at' A 6 / 2)).div hsqrt hs.ne')).const_mul Rln10
    refine this.congr_deriv ?_
    rw [h6]
    generalize Real.sqrt T = s at *
    subst hss
    simp only [Pi.mul_apply]
    field_simp
    ring
  have hgib : (f T).G.val = (f T).H.val - T * (f T).S.val := by
    rw [h3, h4, h5, h1]
    generalize Real.sqrt T = s at *
    subst hss
    field_simp
    ring
  refine ⟨hgib, ?_, hG, ?_, hlnK, hS⟩
  · rw [h3, h2, Rln10]; ring
  · have e : (fun t => (f t).H.val) = fun t => Rln10 * (at' A 1 * (t * t) - at' A 2 + at' A 3 * t - 2 * at' A 4 / t
        + 2 * at' A 5 * (t * t * t) - at' A 6 / 2 * Real.sqrt t) := funext h4
    rw [e]
    have := ((((((hTT.const_mul (at' A 1)).sub_const (at' A 2)).add (hid.const_mul (at' A 3))).sub
      ((hasDerivAt_const T (2 * at' A 4)).div hid hTne)).add ((hTT.mul hid).const_mul (2 * at' A 5))).sub
      (hsqrt.const_mul (at' A 6 / 2))).const_mul Rln10
    refine this.congr_deriv ?_
    rw [h6]
    generalize Real.sqrt T = s at *
    subst hss
    simp only [Pi.mul_apply]
    field_simp
    ring

/-- Non-trivial instance: four coefficients. -/
example : ([-2.5, 0, 1340.2, 0.7] : List ℝ) ≠ [] := by simp

/-- **C21, violation.** With both kinds of coefficients the reported heat capacity comes from the Cp coefficients even where
it is not the temperature derivative of the reported enthalpy. -/
theorem C21_both_refuted : ∃ (A Cp : List ℝ) (f : ℝ → TPR),
    (∀ T P ref Tr, P = 1e5 → ref = TPR.default → logKfTEntry T P ref A Cp Tr .LGK = .ok (f T)) ∧
    ¬ HasDerivAt (fun t => (f t).H.val) (f 300).Cp.val 300 := by
  refine ⟨[0, 0, 0, 0, 0, 0, 0], [1, 0, 0, 0, 0], fun T => finishLogK (TS.temperature T)
    (TS.divAssignD (TS.pressure 1e5) 1e5) TS.default (mid7 (TS.temperature T) (at' [0, 0, 0, 0, 0, 0, 0])
      (at' [1, 0, 0, 0, 0])), ?_, ?_⟩
  · rintro T P ref Tr rfl rfl
    simp [logKfTEntry, logKfT, switchT, logK7, TPR.default]
  · intro h
    have h0 : HasDerivAt (fun t : ℝ => (finishLogK (TS.temperature t)
        (TS.divAssignD (TS.pressure 1e5) 1e5) TS.default (mid7 (TS.temperature t) (at' [0, 0, 0, 0, 0, 0, 0])
      (at' [1, 0, 0, 0, 0]))).H.val) 0 300 := by
      have : (fun t : ℝ => (finishLogK (TS.temperature t)
        (TS.divAssignD (TS.pressure 1e5) 1e5) TS.default (mid7 (TS.temperature t) (at' [0, 0, 0, 0, 0, 0, 0])
      (at' [1, 0, 0, 0, 0]))).H.val) = fun _ => 0 := by
        funext t; simp [finishLogK, mid7, at']
      rw [this]; exact hasDerivAt_const _ _
    have := h.unique h0
    simp [finishLogK, mid7, at'] at this

/-- **C21, violation.** With neither kind of coefficients (or both, one of them too short) coefficients are read past the end
of the vector. -/
theorem C21_bounds_refuted (T P : ℝ) (ref : TPR) (Tr : ℝ) : logKfTEntry T P ref [] [] Tr .LGK = .ub ∧
    logKfTEntry T P ref [1, 2, 3] [1, 0, 0, 0, 0] Tr .LGK = .ub := by
  simp [logKfTEntry, logKfT, switchT, logK7]

/-- Full statement: for any coefficient vectors the result is defined. Proved: it is, exactly when one kind is missing or both
are complete. -/
theorem C21_defined_partial (T P : ℝ) (ref : TPR) (A Cp : List ℝ) (Tr : ℝ) :
    (∃ r, logKfTEntry T P ref A Cp Tr .LGK = .ok r) ↔
      (A = [] ∧ Cp ≠ []) ∨ (A ≠ [] ∧ Cp = []) ∨ (7 ≤ A.length ∧ 5 ≤ Cp.length) := by
  rcases A with _ | ⟨a, A⟩ <;> rcases Cp with _ | ⟨c, Cp⟩
  · simp [logKfTEntry, logKfT, switchT, logK7]
  · simp [logKfTEntry, logKfT, switchT, logK7, cpToLogK, resize_length]
  · simp [logKfTEntry, logKfT, switchT, logK7, logKToCp, resize_length]
  · simp only [logKfTEntry, logKfT, switchT, logK7, List.length_cons, Nat.add_eq_zero_iff, one_ne_zero, and_false, false_and,
      if_false, reduceCtorEq, ne_eq, not_false_eq_true, false_or]
    by_cases h : A.length + 1 < 7 ∨ Cp.length + 1 < 5
    · rw [if_pos h]
      simp only [Res.ub_bind, reduceCtorEq, exists_false, false_iff]; omega
    · rw [if_neg h]
      simp only [Res.ok_bind, Res.ok.injEq, exists_eq', true_iff]; omega

example : (7 ≤ ([1, 2, 3, 4, 5, 6, 7] : List ℝ).length ∧ 5 ≤ ([1, 2, 3, 4, 5] : List ℝ).length) := by simp

/-! ### C22 -/

/-- The reported properties satisfy G = -R T ln K and ln K = lg_to_ln · log K for every method. -/
theorem C22_equilibrium (T P : ℝ) (ref : TPR) (A Cp : List ℝ) (Tr : ℝ) (CE : CorrT) (r : TPR)
    (h : logKfTEntry T P ref A Cp Tr CE = .ok r) :
    r.G.val = -(Rgas * T * r.lnK.val) ∧ r.lnK.val = lgToLn * r.logK.val := by
  simp only [logKfTEntry, logKfT] at h
  cases hm : switchT (TS.temperature T) ref.G (fillH (TS.temperature T) ref) (fillS (TS.temperature T) ref) ref.Cp ref.logK A Cp Tr
    (if CE = .EK3 then determineMethod (fillH (TS.temperature T) ref) (fillS (TS.temperature T) ref) ref.Cp else CE) with
  | ok m =>
    rw [hm] at h
    simp only [Res.ok_bind, Res.ok.injEq] at h
    subst h
    simp [finishLogK]; ring
  | throw => rw [hm] at h; simp at h
  | ub => rw [hm] at h; simp at h

lemma entry_EK2 (T P : ℝ) (ref : TPR) (hH : ref.H.has) (hS : ref.S.has) (A Cp : List ℝ) (Tr : ℝ) :
    ∃ r, logKfTEntry T P ref A Cp Tr .EK2 = .ok r ∧ r.logK.val = (ref.S.val - ref.H.val / T) / Rln10 ∧
      r.lnK.val = lgToLn * r.logK.val ∧ r.G.val = -(Rgas * T * r.lnK.val) ∧
      r.H = ref.H ∧ r.S = ref.S ∧ r.Cp = ref.Cp := by
  refine ⟨finishLogK (TS.temperature T) (TS.divAssignD (TS.pressure P) 1e5) ref.V
    ⟨TS.divR (TS.sub ref.S (TS.div ref.H (TS.temperature T))) Rln10, ref.H, ref.S, ref.Cp⟩, ?_, ?_⟩
  · simp [logKfTEntry, logKfT, switchT, fillH, fillS, hH, hS]
  · simp [finishLogK]; ring

lemma entry_EK3 (T P : ℝ) (ref : TPR) (hH : ref.H.has) (hS : ref.S.has) (hC : ref.Cp.has) (A Cp : List ℝ) (Tr : ℝ) :
    ∃ r, logKfTEntry T P ref A Cp Tr .EK3 = .ok r ∧
      r.logK.val = (ref.S.val - ref.H.val / T - ref.Cp.val * (1 - Tr / T - Real.log (T / Tr))) / Rln10 ∧
      r.lnK.val = lgToLn * r.logK.val ∧ r.G.val = -(Rgas * T * r.lnK.val) ∧
      r.H.val = ref.H.val + ref.Cp.val * (T - Tr) ∧ r.S.val = ref.S.val + ref.Cp.val * Real.log (T / Tr) ∧
      r.Cp = ref.Cp := by
  refine ⟨finishLogK (TS.temperature T) (TS.divAssignD (TS.pressure P) 1e5) ref.V
    (mid3 (TS.temperature T) ref.H ref.S ref.Cp Tr), ?_, ?_⟩
  · simp [logKfTEntry, logKfT, switchT, fillH, fillS, hH, hS, hC, determineMethod]
  · simp [finishLogK, mid3]; ring

/-- **C22, three terms.** With H, S and Cp known the extrapolation is consistent at every T > 0 and gives back the reference
values at `Tr`. -/
theorem C22_three_term (P : ℝ) (ref : TPR) (hH : ref.H.has) (hS : ref.S.has) (hC : ref.Cp.has) (A Cp : List ℝ)
    (Tr : ℝ) (hTr : 0 < Tr) :
    ∃ f : ℝ → TPR, (∀ T, logKfTEntry T P ref A Cp Tr .EK3 = .ok (f T)) ∧ (∀ T > 0, Consistent f T) ∧
      (f Tr).H.val = ref.H.val ∧ (f Tr).S.val = ref.S.val ∧ (f Tr).Cp.val = ref.Cp.val ∧
      (ref.G.val = ref.H.val - Tr * ref.S.val → (f Tr).G.val = ref.G.val) := by
  choose f hf h1 h2 h3 h4 h5 h6 using fun T => entry_EK3 T P ref hH hS hC A Cp Tr
  have hR := Rgas_pos.ne'
  have hL := lgToLn_pos.ne'
  have hgib : ∀ T > 0, (f T).G.val = (f T).H.val - T * (f T).S.val := by
    intro T hT
    rw [h3, h2, h4, h5, h1, Rln10]
    field_simp
    ring
  refine ⟨f, hf, fun T hT => ?_, ?_, ?_, ?_, ?_⟩
  · have hTne := hT.ne'
    have hTrne := hTr.ne'
    have hid := hasDerivAt_id' T
    have hlg : HasDerivAt (fun t => Real.log (t / Tr)) (1 / T) T := by
      have := (hid.div_const Tr).log (by positivity)
      refine this.congr_deriv ?_
      field_simp
    have hH' : HasDerivAt (fun t => (f t).H.val) (f T).Cp.val T := by
      simp only [h4, h6]
      exact ((((hid.sub_const Tr).const_mul _).const_add _)).congr_deriv (by ring)
    have hS' : HasDerivAt (fun t => (f t).S.val) ((f T).Cp.val / T) T := by
      simp only [h5, h6]
      exact ((hlg.const_mul _).const_add _).congr_deriv (by ring)
    have hK : HasDerivAt (fun t => (f t).lnK.val) ((f T).H.val / (Rgas * T ^ 2)) T := by
      simp only [h2, h1]
      have := (((hasDerivAt_const T ref.H.val).div hid hTne).const_sub ref.S.val).sub
        (((((hasDerivAt_const T Tr).div hid hTne).const_sub 1).sub hlg).const_mul ref.Cp.val)
      refine ((this.div_const Rln10).const_mul lgToLn).congr_deriv ?_
      rw [h4, Rln10]
      field_simp
      ring
    have hG : HasDerivAt (fun t => (f t).G.val) (-(f T).S.val) T := by
      simp only [h3]
      refine ((hid.const_mul Rgas).mul hK).neg.congr_deriv ?_
      rw [h2, h1, h4, h5, Rln10]
      field_simp
      ring
    exact ⟨hgib T hT, h3 T, hG, hH', hK, hS'⟩
  · rw [h4]; ring
  · rw [h5, div_self hTr.ne', Real.log_one]; ring
  · rw [h6]
  · intro h
    rw [hgib Tr hTr, h4, h5, div_self hTr.ne', Real.log_one, h]; ring

/-- Defined reference data exist: H = -10, S = 3, Cp = 20 with G derived. -/
example : ∃ ref : TPR, ref.H.has ∧ ref.S.has ∧ ref.Cp.has ∧ ref.Cp.val = 20 ∧ (0 : ℝ) < 298.15 :=
  ⟨{ TPR.default with H := TS.mk5 (-10) 0 0 0 .read, S := TS.mk5 3 0 0 0 .read, Cp := TS.mk5 20 0 0 0 .read },
    by simp [TS.has, TS.mk5]; norm_num⟩

/-- **C22, two terms (partial).** Full statement: the reported G, H, S, Cp and K are consistent. Proved when the reference heat
capacity is zero (or unknown, whose value is zero); otherwise false, see `C22_two_term_refuted`. -/
theorem C22_two_term_partial (P : ℝ) (ref : TPR) (hH : ref.H.has) (hS : ref.S.has) (hC : ref.Cp.val = 0) (A Cp : List ℝ)
    (Tr : ℝ) (hTr : 0 < Tr) :
    ∃ f : ℝ → TPR, (∀ T, logKfTEntry T P ref A Cp Tr .EK2 = .ok (f T)) ∧ (∀ T > 0, Consistent f T) ∧
      (f Tr).H = ref.H ∧ (f Tr).S = ref.S ∧
      (ref.G.val = ref.H.val - Tr * ref.S.val → (f Tr).G.val = ref.G.val) := by
  choose f hf h1 h2 h3 h4 h5 h6 using fun T => entry_EK2 T P ref hH hS A Cp Tr
  have hR := Rgas_pos.ne'
  have hL := lgToLn_pos.ne'
  have hgib : ∀ T > 0, (f T).G.val = (f T).H.val - T * (f T).S.val := by
    intro T hT
    rw [h3, h2, h4, h5, h1, Rln10]
    field_simp
    ring
  refine ⟨f, hf, fun T hT => ?_, h4 Tr, h5 Tr, ?_⟩
  · have hTne := hT.ne'
    have hid := hasDerivAt_id' T
    have hK : HasDerivAt (fun t => (f t).lnK.val) ((f T).H.val / (Rgas * T ^ 2)) T := by
      simp only [h2, h1]
      have := (((hasDerivAt_const T ref.H.val).div hid hTne).const_sub ref.S.val)
      refine ((this.div_const Rln10).const_mul lgToLn).congr_deriv ?_
      rw [h4, Rln10]
      field_simp
      ring
    have hG : HasDerivAt (fun t => (f t).G.val) (-(f T).S.val) T := by
      simp only [h3]
      refine ((hid.const_mul Rgas).mul hK).neg.congr_deriv ?_
      rw [h2, h1, h4, h5, Rln10]
      field_simp
      ring
    refine ⟨hgib T hT, h3 T, hG, ?_, hK, ?_⟩
    · simp only [h4, h6, hC]; exact hasDerivAt_const _ _
    · simp only [h5, h6, hC, zero_div]; exact hasDerivAt_const _ _
  · intro h
    rw [hgib Tr hTr, h4, h5, h]

example : ∃ ref : TPR, ref.H.has ∧ ref.S.has ∧ ref.Cp.val = 0 ∧ ref.H.val = -10 :=
  ⟨{ TPR.default with H := TS.mk5 (-10) 0 0 0 .read, S := TS.mk5 3 0 0 0 .read },
    by simp [TS.has, TS.mk5, TPR.default, TS.default, TS.ofVal]⟩

/-- **C22, violation.** In the two-term extrapolation the enthalpy is held constant while the reference heat capacity is
reported, so dH/dT ≠ Cp at every temperature. -/
theorem C22_two_term_refuted (P : ℝ) (ref : TPR) (hH : ref.H.has) (hS : ref.S.has) (hC : ref.Cp.val ≠ 0) (A Cp : List ℝ)
    (Tr : ℝ) :
    ∃ f : ℝ → TPR, (∀ T, logKfTEntry T P ref A Cp Tr .EK2 = .ok (f T)) ∧
      ∀ T, ¬ HasDerivAt (fun t => (f t).H.val) (f T).Cp.val T := by
  choose f hf h1 h2 h3 h4 h5 h6 using fun T => entry_EK2 T P ref hH hS A Cp Tr
  refine ⟨f, hf, fun T h => hC ?_⟩
  simp only [h4, h6] at h
  exact h.unique (hasDerivAt_const _ _)

/-- **C22, violation.** When only G and S are known, the enthalpy is derived with the current instead of the reference
temperature: the reported G stays at its reference value at every temperature and dG/dT = 0 ≠ -S. -/
theorem C22_missing_enthalpy_refuted (P : ℝ) (ref : TPR) (hG : ref.G.has) (hS : ref.S.has) (hH : ¬ ref.H.has)
    (hS0 : ref.S.val ≠ 0) (A Cp : List ℝ) (Tr : ℝ) :
    ∃ f : ℝ → TPR, (∀ T, logKfTEntry T P ref A Cp Tr .EK2 = .ok (f T)) ∧ (∀ T > 0, (f T).G.val = ref.G.val) ∧
      ∀ T > 0, ¬ HasDerivAt (fun t => (f t).G.val) (-(f T).S.val) T := by
  have key : ∀ T, ∃ r, logKfTEntry T P ref A Cp Tr .EK2 = .ok r ∧ (0 < T → r.G.val = ref.G.val) ∧ r.S = ref.S := by
    intro T
    refine ⟨finishLogK (TS.temperature T) (TS.divAssignD (TS.pressure P) 1e5) ref.V
      ⟨TS.divR (TS.sub ref.S (TS.div (TS.add ref.G (TS.mul ref.S (TS.temperature T))) (TS.temperature T))) Rln10,
        TS.add ref.G (TS.mul ref.S (TS.temperature T)), ref.S, ref.Cp⟩, ?_, ?_, ?_⟩
    · simp [logKfTEntry, logKfT, switchT, fillH, fillS, hG, hS, hH]
    · intro hT
      have hR := Rgas_pos.ne'
      have hL := lgToLn_pos.ne'
      simp only [finishLogK, TS.val_mulR, TS.val_mul, TS.val_neg, TS.val_temperature, TS.val_divR, TS.val_sub, TS.val_div,
        TS.val_add, Rln10]
      field_simp
      ring
    · rfl
  choose f hf h1 h2 using key
  refine ⟨f, hf, h1, fun T hT h => hS0 ?_⟩
  have hc : HasDerivAt (fun t => (f t).G.val) 0 T := by
    refine (hasDerivAt_const T ref.G.val).congr_of_eventuallyEq ?_
    filter_upwards [lt_mem_nhds hT] with t ht
    exact h1 t ht
  have := h.unique hc
  rw [h2] at this; linarith

example : ∃ ref : TPR, ref.G.has ∧ ref.S.has ∧ ¬ ref.H.has ∧ ref.S.val ≠ 0 :=
  ⟨{ TPR.default with G := TS.mk5 (-1000) 0 0 0 .read, S := TS.mk5 3 0 0 0 .read },
    by simp [TS.has, TS.mk5, TPR.default, TS.default, TS.ofVal]⟩

/-- **C22, violation.** Likewise, when only G and H are known the entropy is derived with the current temperature, `S = (H - G)/T`, which is
not minus the slope of the reported (constant) G unless it is zero. -/
theorem C22_missing_entropy_refuted (P : ℝ) (ref : TPR) (hG : ref.G.has) (hH : ref.H.has) (hS : ¬ ref.S.has)
    (hne : ref.H.val ≠ ref.G.val) (A Cp : List ℝ) (Tr : ℝ) :
    ∃ f : ℝ → TPR, (∀ T, logKfTEntry T P ref A Cp Tr .EK2 = .ok (f T)) ∧
      (∀ T > 0, (f T).G.val = ref.G.val ∧ (f T).S.val = (ref.H.val - ref.G.val) / T) ∧
      ∀ T > 0, ¬ HasDerivAt (fun t => (f t).G.val) (-(f T).S.val) T := by
  have key : ∀ T, ∃ r, logKfTEntry T P ref A Cp Tr .EK2 = .ok r ∧ (0 < T → r.G.val = ref.G.val) ∧
      r.S.val = (ref.H.val - ref.G.val) / T := by
    intro T
    refine ⟨finishLogK (TS.temperature T) (TS.divAssignD (TS.pressure P) 1e5) ref.V
      ⟨TS.divR (TS.sub (TS.div (TS.sub ref.H ref.G) (TS.temperature T)) (TS.div ref.H (TS.temperature T))) Rln10,
        ref.H, TS.div (TS.sub ref.H ref.G) (TS.temperature T), ref.Cp⟩, ?_, ?_, ?_⟩
    · simp [logKfTEntry, logKfT, switchT, fillH, fillS, hG, hS, hH]
    · intro hT
      have hR := Rgas_pos.ne'
      have hL := lgToLn_pos.ne'
      simp only [finishLogK, TS.val_mulR, TS.val_mul, TS.val_neg, TS.val_temperature, TS.val_divR, TS.val_sub, TS.val_div,
        TS.val_add, Rln10]
      field_simp
      ring
    · simp [finishLogK]
  choose f hf h1 h2 using key
  refine ⟨f, hf, fun T hT => ⟨h1 T hT, h2 T⟩, fun T hT h => hne ?_⟩
  have hc : HasDerivAt (fun t => (f t).G.val) 0 T := by
    refine (hasDerivAt_const T ref.G.val).congr_of_eventuallyEq ?_
    filter_upwards [lt_mem_nhds hT] with t ht
    exact h1 t ht
  have := h.unique hc
  rw [h2, neg_eq_zero, div_eq_zero_iff] at this
  rcases this with h | h
  · linarith
  · exact absurd h hT.ne'

example : ∃ ref : TPR, ref.G.has ∧ ref.H.has ∧ ¬ ref.S.has ∧ ref.H.val ≠ ref.G.val :=
  ⟨{ TPR.default with G := TS.mk5 (-1000) 0 0 0 .read, H := TS.mk5 3 0 0 0 .read },
    by simp [TS.has, TS.mk5, TPR.default, TS.default, TS.ofVal]; norm_num⟩

/-- **C22, one-term extrapolations.** EK0 keeps log K, EK1 keeps G at its reference value (T ≠ 0). -/
theorem C22_one_term (T P : ℝ) (hT : T ≠ 0) (ref : TPR) (A Cp : List ℝ) (Tr : ℝ) :
    (∃ r, logKfTEntry T P ref A Cp Tr .EK0 = .ok r ∧ r.logK = ref.logK ∧ r.G.val = -(Rgas * T * (lgToLn * ref.logK.val))) ∧
    (∃ r, logKfTEntry T P ref A Cp Tr .EK1 = .ok r ∧ r.G.val = ref.G.val ∧ r.H = ref.G) := by
  constructor
  · refine ⟨finishLogK (TS.temperature T) (TS.divAssignD (TS.pressure P) 1e5) ref.V
      ⟨ref.logK, fillH (TS.temperature T) ref, fillS (TS.temperature T) ref, ref.Cp⟩, ?_, rfl, ?_⟩
    · simp [logKfTEntry, logKfT, switchT]
    · simp [finishLogK]; ring
  · refine ⟨finishLogK (TS.temperature T) (TS.divAssignD (TS.pressure P) 1e5) ref.V
      ⟨TS.divR (TS.div (TS.neg ref.G) (TS.temperature T)) Rln10, ref.G, fillS (TS.temperature T) ref, ref.Cp⟩, ?_, ?_, rfl⟩
    · simp [logKfTEntry, logKfT, switchT]
    · have hR := Rgas_pos.ne'
      have hL := lgToLn_pos.ne'
      simp [finishLogK, Rln10]
      field_simp

/-- **C22, violation.** The constant-G extrapolation reports H = G whatever the entropy: G ≠ H - T S as soon as S ≠ 0. -/
theorem C22_constant_G_refuted (T P : ℝ) (hT : T ≠ 0) (ref : TPR) (hS : ref.S.has) (hS0 : ref.S.val ≠ 0) (A Cp : List ℝ)
    (Tr : ℝ) : ∃ r, logKfTEntry T P ref A Cp Tr .EK1 = .ok r ∧ r.G.val ≠ r.H.val - T * r.S.val := by
  refine ⟨finishLogK (TS.temperature T) (TS.divAssignD (TS.pressure P) 1e5) ref.V
      ⟨TS.divR (TS.div (TS.neg ref.G) (TS.temperature T)) Rln10, ref.G, fillS (TS.temperature T) ref, ref.Cp⟩, ?_, ?_⟩
  · simp [logKfTEntry, logKfT, switchT]
  · have hR := Rgas_pos.ne'
    have hL := lgToLn_pos.ne'
    have e : (finishLogK (TS.temperature T) (TS.divAssignD (TS.pressure P) 1e5) ref.V
      ⟨TS.divR (TS.div (TS.neg ref.G) (TS.temperature T)) Rln10, ref.G, fillS (TS.temperature T) ref, ref.Cp⟩).G.val = ref.G.val := by
      simp [finishLogK, Rln10]
      field_simp
    rw [e]
    simp only [finishLogK, fillS, hS, not_true_eq_false, and_false, if_false]
    intro h
    have : T * ref.S.val = 0 := by linarith
    simp [hT, hS0] at this

/-! ### C23 -/

/-- Known or derivable from the two others. -/
def Derivable (x y z : TS) : Prop := x.has ∨ (y.has ∧ z.has)

/-- **C23.** What a three-term request is carried out as, for every combination of known and unknown reference data: three
terms if H, S (given or derivable from G) and Cp are known; two terms if only Cp is missing; otherwise log K is held constant,
except that G is held constant when the only known one of H and S is zero. -/
theorem C23_downgrade (T P : ℝ) (ref : TPR) (A Cp : List ℝ) (Tr : ℝ) :
    let knownH := Derivable ref.H ref.G ref.S
    let knownS := Derivable ref.S ref.G ref.H
    let run := logKfTEntry T P ref A Cp Tr
    (knownH ∧ knownS ∧ ref.Cp.has → ∃ r, run .EK3 = .ok r ∧ r.Cp = ref.Cp ∧ ∃ r2, run .EK2 = .ok r2 ∧
      r.H.val = r2.H.val + ref.Cp.val * (T - Tr) ∧ r.S.val = r2.S.val + ref.Cp.val * Real.log (T / Tr) ∧
      r.logK.val = r2.logK.val - ref.Cp.val * (1 - Tr / T - Real.log (T / Tr)) / Rln10) ∧
    (knownH ∧ knownS ∧ ¬ ref.Cp.has → run .EK3 = run .EK2) ∧
    (¬ (knownH ∧ knownS) ∧ ((ref.H.has ∧ ref.H.val = 0) ∨ (ref.S.has ∧ ref.S.val = 0)) → run .EK3 = run .EK1) ∧
    (¬ (knownH ∧ knownS) ∧ ¬ ((ref.H.has ∧ ref.H.val = 0) ∨ (ref.S.has ∧ ref.S.val = 0)) → run .EK3 = run .EK0) := by
  have hH : (fillH (TS.temperature T) ref).has ↔ Derivable ref.H ref.G ref.S := by
    unfold fillH Derivable; split <;> simp <;> tauto
  have hS : (fillS (TS.temperature T) ref).has ↔ Derivable ref.S ref.G ref.H := by
    unfold fillS Derivable; split <;> simp <;> tauto
  have eH : ¬ (Derivable ref.H ref.G ref.S ∧ Derivable ref.S ref.G ref.H) → fillH (TS.temperature T) ref = ref.H := by
    unfold fillH Derivable; intro h; rw [if_neg]; tauto
  have eS : ¬ (Derivable ref.H ref.G ref.S ∧ Derivable ref.S ref.G ref.H) → fillS (TS.temperature T) ref = ref.S := by
    unfold fillS Derivable; intro h; rw [if_neg]; tauto
  have dH : ¬ (Derivable ref.H ref.G ref.S ∧ Derivable ref.S ref.G ref.H) → ¬ (ref.H.has ∧ ref.S.has) := by
    unfold Derivable; tauto
  refine ⟨?_, ?_, ?_, ?_⟩
  · rintro ⟨a, b, c⟩
    refine ⟨finishLogK (TS.temperature T) (TS.divAssignD (TS.pressure P) 1e5) ref.V
      (mid3 (TS.temperature T) (fillH (TS.temperature T) ref) (fillS (TS.temperature T) ref) ref.Cp Tr), ?_, rfl,
      finishLogK (TS.temperature T) (TS.divAssignD (TS.pressure P) 1e5) ref.V
      ⟨TS.divR (TS.sub (fillS (TS.temperature T) ref) (TS.div (fillH (TS.temperature T) ref) (TS.temperature T))) Rln10,
        fillH (TS.temperature T) ref, fillS (TS.temperature T) ref, ref.Cp⟩, ?_, ?_⟩
    · simp [logKfTEntry, logKfT, switchT, determineMethod, hH, hS, a, b, c]
    · simp [logKfTEntry, logKfT, switchT]
    · simp [finishLogK, mid3]; ring
  · rintro ⟨a, b, c⟩
    simp [logKfTEntry, logKfT, determineMethod, hH, hS, a, b, c]
  · rintro ⟨a, b⟩
    simp [logKfTEntry, logKfT, determineMethod, eH a, eS a, b, dH a]
  · rintro ⟨a, b⟩
    simp [logKfTEntry, logKfT, determineMethod, eH a, eS a, b, dH a]

/-- All four cases occur. -/
example : ∃ a b c d : TPR,
    (Derivable a.H a.G a.S ∧ Derivable a.S a.G a.H ∧ a.Cp.has) ∧ (Derivable b.H b.G b.S ∧ Derivable b.S b.G b.H ∧ ¬ b.Cp.has) ∧
    (¬ (Derivable c.H c.G c.S ∧ Derivable c.S c.G c.H) ∧ c.H.has ∧ c.H.val = 0) ∧
    ¬ (Derivable d.H d.G d.S ∧ Derivable d.S d.G d.H) ∧ d.H.has ∧ d.H.val = 5 :=
  ⟨{ TPR.default with G := TS.mk5 1 0 0 0 .read, S := TS.mk5 3 0 0 0 .read, Cp := TS.mk5 3 0 0 0 .read },
   { TPR.default with H := TS.mk5 1 0 0 0 .read, S := TS.mk5 3 0 0 0 .read },
   { TPR.default with H := TS.mk5 0 0 0 0 .read }, { TPR.default with H := TS.mk5 5 0 0 0 .read },
    by simp [Derivable, TS.has, TS.mk5, TPR.default, TS.default, TS.ofVal]⟩

/-- **C23, violation.** When H = 0 and log K are all that is known (so log K does not depend on temperature), the three-term
request is carried out with the unknown G: the reported log K is the undefined value 0, whatever log K was given. -/
theorem C23_zero_enthalpy_refuted (T P : ℝ) (ref : TPR) (hH : ref.H.has) (h0 : ref.H.val = 0) (hS : ¬ ref.S.has)
    (hG : ref.G = TS.default) (A Cp : List ℝ) (Tr : ℝ) :
    ∃ r, logKfTEntry T P ref A Cp Tr .EK3 = .ok r ∧ ¬ r.logK.has ∧ r.logK.val = 0 := by
  refine ⟨finishLogK (TS.temperature T) (TS.divAssignD (TS.pressure P) 1e5) ref.V
      ⟨TS.divR (TS.div (TS.neg ref.G) (TS.temperature T)) Rln10, ref.G, fillS (TS.temperature T) ref, ref.Cp⟩, ?_, ?_, ?_⟩
  · have : ¬ (ref.G.has) := by rw [hG]; simp
    simp [logKfTEntry, logKfT, switchT, determineMethod, fillH, fillS, hH, h0, hS, this]
  · simp [finishLogK, hG]
  · simp [finishLogK, hG]

example : ∃ ref : TPR, ref.H.has ∧ ref.H.val = 0 ∧ ¬ ref.S.has ∧ ref.G = TS.default ∧ ref.logK.has ∧ ref.logK.val = 4 :=
  ⟨{ TPR.default with H := TS.mk5 0 0 0 0 .read, logK := TS.mk5 4 0 0 0 .read },
    by simp [TS.has, TS.mk5, TPR.default, TS.default, TS.ofVal]⟩

/-! ### C24 -/

lemma entry_Cp (T P : ℝ) (hT : 0 < T) (ref : TPR) (hH : ref.H.has) (hS : ref.S.has) (c : List ℝ) (hc : c ≠ []) (Tr : ℝ) :
    ∃ r, logKfTEntry T P ref [] c Tr .LGK = .ok r ∧ r.H.val = ref.H.val ∧ r.S.val = ref.S.val ∧
      r.G.val = r.H.val - T * r.S.val ∧
      r.Cp.val = at' c 0 + at' c 1 * T + at' c 2 / (T * T) + at' c 3 / Real.sqrt T + at' c 4 * (T * T) := by
  have hlen : ¬ (c.length = 0) := by simpa using hc
  have e1 : ∀ i < 5, at' (resize 5 c) i = at' c i := fun i h => at'_resize 5 c i h
  have hsq := TS.val_powR_half (TS.temperature T)
  have hs : 0 < Real.sqrt T := Real.sqrt_pos.mpr hT
  have hss : Real.sqrt T * Real.sqrt T = T := Real.mul_self_sqrt hT.le
  have hR := Rln10_pos.ne'
  have hR1 := Rgas_pos.ne'
  have hL := lgToLn_pos.ne'
  refine ⟨finishLogK (TS.temperature T) (TS.divAssignD (TS.pressure P) 1e5) ref.V
    (mid7 (TS.temperature T) (at' (cpToLogK (TS.temperature T) ref.S ref.H (resize 5 c))) (at' (resize 5 c))), ?_, ?_⟩
  · simp [logKfTEntry, logKfT, switchT, logK7, hc, List.length_pos_iff, fillH, fillS, hH, hS, resize_length, cpToLogK]
  · simp only [finishLogK, mid7, cpToLogK, TS.val_add, TS.val_addL, TS.val_mulL, TS.val_mulR, TS.val_divL, TS.val_divR, TS.val_mul,
      TS.val_log, TS.val_neg, TS.val_sub, TS.val_subR, hsq, TS.val_temperature, e1, Nat.reduceLT,
      at'_cons0, at'_cons1, at'_cons2, at'_cons3, at'_cons4,
      show ∀ (a b c d e f : ℝ) (l : List ℝ), at' (a :: b :: c :: d :: e :: f :: l) 5 = f from fun _ _ _ _ _ _ _ => rfl,
      show ∀ (a b c d e f g : ℝ) (l : List ℝ), at' (a :: b :: c :: d :: e :: f :: g :: l) 6 = g from fun _ _ _ _ _ _ _ _ => rfl]
    simp only [show (2.0 : ℝ) = 2 by norm_num, show (0.5 : ℝ) = 1 / 2 by norm_num, show (3.0 : ℝ) = 3 by norm_num,
      show (1.0 : ℝ) = 1 by norm_num, show (6.0 : ℝ) = 6 by norm_num, show (-4.0 : ℝ) = -4 by norm_num]
    have hRR : Rln10 = Rgas * lgToLn := rfl
    generalize Real.log T = L
    generalize at' c 0 = c0; generalize at' c 1 = c1; generalize at' c 2 = c2; generalize at' c 3 = c3; generalize at' c 4 = c4
    generalize Real.sqrt T = s at *
    subst hss
    refine ⟨?_, ?_, ?_, ?_⟩
    · field_simp; ring
    · field_simp; ring
    · rw [hRR]; field_simp; ring
    · ring

/-- **C24, violation.** With Cp coefficients and no logK coefficients, the reported enthalpy and entropy are the reference values
at *every* temperature, for all coefficients: the constants of integration are computed at the current temperature. -/
theorem C24_frozen_refuted (P : ℝ) (ref : TPR) (hH : ref.H.has) (hS : ref.S.has) (c : List ℝ) (hc : c ≠ []) (Tr : ℝ) :
    (∀ T > 0, ∃ r, logKfTEntry T P ref [] c Tr .LGK = .ok r ∧ r.H.val = ref.H.val ∧ r.S.val = ref.S.val) ∧
    ∀ f : ℝ → TPR, (∀ T > 0, logKfTEntry T P ref [] c Tr .LGK = .ok (f T)) → ∀ T > 0, (f T).Cp.val ≠ 0 →
      ¬ HasDerivAt (fun t => (f t).H.val) (f T).Cp.val T := by
  constructor
  · intro T hT
    obtain ⟨r, h1, h2, h3, -⟩ := entry_Cp T P hT ref hH hS c hc Tr
    exact ⟨r, h1, h2, h3⟩
  · intro f hf T hT h0 hd
    have hc' : HasDerivAt (fun t => (f t).H.val) 0 T := by
      refine (hasDerivAt_const T ref.H.val).congr_of_eventuallyEq ?_
      filter_upwards [lt_mem_nhds hT] with t ht
      obtain ⟨r, h1, h2, -⟩ := entry_Cp t P ht ref hH hS c hc Tr
      rw [hf t ht, Res.ok.injEq] at h1
      rw [h1, h2]
    exact h0 (hd.unique hc')

/-- **C24 (partial).** Full statement: dH/dT = Cp and dS/dT = Cp/T (false, above). Proved: the reported Cp is the given function of T,
G = H - T S, and at the reference temperature (as everywhere) H and S are the reference values. -/
theorem C24_reference_partial (T P : ℝ) (hT : 0 < T) (ref : TPR) (hH : ref.H.has) (hS : ref.S.has) (c : List ℝ) (hc : c ≠ [])
    (Tr : ℝ) : ∃ r, logKfTEntry T P ref [] c Tr .LGK = .ok r ∧ r.G.val = r.H.val - T * r.S.val ∧
      r.H.val = ref.H.val ∧ r.S.val = ref.S.val ∧
      r.Cp.val = at' c 0 + at' c 1 * T + at' c 2 / (T * T) + at' c 3 / Real.sqrt T + at' c 4 * (T * T) := by
  obtain ⟨r, h1, h2, h3, h4, h5⟩ := entry_Cp T P hT ref hH hS c hc Tr
  exact ⟨r, h1, h4, h2, h3, h5⟩

example : ∃ (ref : TPR) (c : List ℝ), ref.H.has ∧ ref.S.has ∧ c ≠ [] ∧ at' c 0 = 20 :=
  ⟨{ TPR.default with H := TS.mk5 (-10) 0 0 0 .read, S := TS.mk5 3 0 0 0 .read }, [20, 0.1],
    by simp [TS.has, TS.mk5, at']⟩

/-! ### C25 -/

/-- **C25, logK → Cp → logK.** All temperature-dependent coefficients are recovered exactly, and so is the one that fixes the enthalpy;
the one that fixes the entropy is recovered exactly when `K4 = 0` or `T² = 1`. -/
theorem C25_logK_round_trip (Tr : ℝ) (hT : 0 < Tr) (k : List ℝ) (hk : k.length = 7) (cp : List ℝ) (h0 s0 c0 l0 : ℝ) :
    ∃ s1 s2, convertLogKToCp Tr ⟨cp, k, h0, s0, c0, l0⟩ = .ok s1 ∧ convertCpToLogK Tr s1 = .ok s2 ∧
      (∀ i, 1 ≤ i → i < 7 → s2.k[i]? = k[i]?) ∧
      (s2.k[0]? = k[0]? ↔ k[4]? = some 0 ∨ Tr = 1) := by
  obtain ⟨a, b, c, d, e, f, g, rfl⟩ : ∃ a b c d e f g, k = [a, b, c, d, e, f, g] := by
    match k, hk with
    | [a, b, c, d, e, f, g], _ => exact ⟨a, b, c, d, e, f, g, rfl⟩
  refine ⟨_, _, if_neg (by simp), if_neg (by simp [logKToCp]), ?_⟩
  have hs : 0 < Real.sqrt Tr := Real.sqrt_pos.mpr hT
  have hss : Real.sqrt Tr * Real.sqrt Tr = Tr := Real.mul_self_sqrt hT.le
  have hR := Rln10_pos.ne'
  have hsq := TS.val_powR_half (TS.temperature Tr)
  have hsq' : Tr ^ (0.5 : ℝ) = Real.sqrt Tr := by rw [Real.sqrt_eq_rpow]; norm_num
  simp only [cpToLogK, convS, convH, logKToCp, at'_cons0, at'_cons1, at'_cons2, at'_cons3, at'_cons4, hsq',
    TS.val_add, TS.val_addL, TS.val_mulL, TS.val_mulR, TS.val_divL, TS.val_divR, TS.val_mul,
      TS.val_log, TS.val_neg, TS.val_sub, TS.val_subR, hsq, TS.val_temperature, TS.val_ofVal,
      show ∀ (a b c d e f : ℝ) (l : List ℝ), at' (a :: b :: c :: d :: e :: f :: l) 5 = f from fun _ _ _ _ _ _ _ => rfl,
      show ∀ (a b c d e f g : ℝ) (l : List ℝ), at' (a :: b :: c :: d :: e :: f :: g :: l) 6 = g from fun _ _ _ _ _ _ _ _ => rfl]
  simp only [show (2.0 : ℝ) = 2 by norm_num, show (0.5 : ℝ) = 1 / 2 by norm_num, show (3.0 : ℝ) = 3 by norm_num,
      show (0.25 : ℝ) = 1 / 4 by norm_num,
      show (1.0 : ℝ) = 1 by norm_num, show (6.0 : ℝ) = 6 by norm_num, show (-4.0 : ℝ) = -4 by norm_num]
  generalize Real.log Tr = L
  constructor
  · intro i h1 h7
    obtain rfl | rfl | rfl | rfl | rfl | rfl : i = 1 ∨ i = 2 ∨ i = 3 ∨ i = 4 ∨ i = 5 ∨ i = 6 := by omega
    · simp only [List.getElem?_cons_succ, List.getElem?_cons_zero, Option.some.injEq]; field_simp
    · simp only [List.getElem?_cons_succ, List.getElem?_cons_zero, Option.some.injEq]
      generalize Real.sqrt Tr = s at *
      subst hss
      field_simp; ring
    · simp only [List.getElem?_cons_succ, List.getElem?_cons_zero, Option.some.injEq]; field_simp
    · simp only [List.getElem?_cons_succ, List.getElem?_cons_zero, Option.some.injEq]; field_simp
    · simp only [List.getElem?_cons_succ, List.getElem?_cons_zero, Option.some.injEq]; field_simp
    · simp only [List.getElem?_cons_succ, List.getElem?_cons_zero, Option.some.injEq]; field_simp
  · simp only [List.getElem?_cons_succ, List.getElem?_cons_zero, Option.some.injEq]
    have hid : (Rln10 * (a + 2 * b * Tr + d * (1 + L) - e / Tr * Tr + 3 * f * Tr * Tr + 1 / 2 * g / Real.sqrt Tr)
        - Rln10 * d - Rln10 * d * L - Rln10 * 2 * b * Tr + Rln10 * 2 * e / (2 * Tr * Tr) + 2 * (-Rln10 * (1 / 4) * g) / Real.sqrt Tr
        - Rln10 * 6 * f * Tr * Tr / 2) / Rln10 = a + e * (1 / Tr ^ 2 - 1) := by
      field_simp; ring
    rw [hid]
    constructor
    · intro h
      have h' : e * (1 / Tr ^ 2 - 1) = 0 := by linarith
      rcases mul_eq_zero.mp h' with h | h
      · exact Or.inl h
      · right
        have h2 : Tr ^ 2 = 1 := by
          have : (1 : ℝ) / Tr ^ 2 = 1 := by linarith
          field_simp at this; linarith
        nlinarith
    · rintro (rfl | rfl) <;> ring

/-- **C25, violation.** With `K4 = 1` at 298.15 K the constant of integration is not recovered. -/
theorem C25_entropy_refuted : ∃ (k : List ℝ), k.length = 7 ∧ ∀ cp h0 s0 c0 l0 s1 s2,
    convertLogKToCp 298.15 ⟨cp, k, h0, s0, c0, l0⟩ = .ok s1 → convertCpToLogK 298.15 s1 = .ok s2 → s2.k[0]? ≠ k[0]? := by
  refine ⟨[0, 0, 0, 0, 1, 0, 0], rfl, fun cp h0 s0 c0 l0 s1 s2 h1 h2 h => ?_⟩
  obtain ⟨t1, t2, e1, e2, -, e3⟩ := C25_logK_round_trip 298.15 (by norm_num) [0, 0, 0, 0, 1, 0, 0] rfl cp h0 s0 c0 l0
  rw [h1, Res.ok.injEq] at e1; subst e1
  rw [h2, Res.ok.injEq] at e2; subst e2
  have := e3.mp h
  norm_num at this

example : ([-2.5, 0, 1340.2, 0.7, 0, 0, 0] : List ℝ).length = 7 ∧ (0 : ℝ) < 298.15 := by norm_num

/-- **C25, Cp → logK → Cp.** The five heat-capacity coefficients are recovered exactly. -/
theorem C25_Cp_round_trip (Tr : ℝ) (c : List ℝ) (hc : c.length = 5) (k : List ℝ) (h0 s0 c0 l0 : ℝ) :
    ∃ s1 s2, convertCpToLogK Tr ⟨c, k, h0, s0, c0, l0⟩ = .ok s1 ∧ convertLogKToCp Tr s1 = .ok s2 ∧ s2.cp = c := by
  obtain ⟨a, b, d, e, f, rfl⟩ : ∃ a b d e f, c = [a, b, d, e, f] := by
    match c, hc with
    | [a, b, d, e, f], _ => exact ⟨a, b, d, e, f, rfl⟩
  have hR := Rln10_pos.ne'
  refine ⟨_, _, if_neg (by simp), if_neg (by simp [cpToLogK]), ?_⟩
  simp only [cpToLogK, logKToCp, at'_cons0, at'_cons1, at'_cons2, at'_cons3, at'_cons4,
      show ∀ (a b c d e f : ℝ) (l : List ℝ), at' (a :: b :: c :: d :: e :: f :: l) 5 = f from fun _ _ _ _ _ _ _ => rfl,
      show ∀ (a b c d e f g : ℝ) (l : List ℝ), at' (a :: b :: c :: d :: e :: f :: g :: l) 6 = g from fun _ _ _ _ _ _ _ _ => rfl,
      show (2.0 : ℝ) = 2 by norm_num, show (0.25 : ℝ) = 1 / 4 by norm_num, show (6.0 : ℝ) = 6 by norm_num,
      show (-4.0 : ℝ) = -4 by norm_num]
  congr 1
  · field_simp
  congr 1
  · field_simp
  congr 1
  · field_simp
  congr 1
  · field_simp
  congr 1
  field_simp

/-- **C25, reference values (partial).** The conversion from Cp coefficients keeps the reference enthalpy, and the reference entropy, heat
capacity and log K exactly when the coefficient of `T⁻²` is zero (or Tr = 1). Full statement: they are kept always and Cp is the
polynomial's value; false, see `C25_reference_refuted`. -/
theorem C25_reference_partial (Tr : ℝ) (hT : 0 < Tr) (c : List ℝ) (hc : c.length = 5) (k : List ℝ) (h0 s0 c0 l0 : ℝ) :
    ∃ s1, convertCpToLogK Tr ⟨c, k, h0, s0, c0, l0⟩ = .ok s1 ∧ s1.H = h0 ∧
      (s1.S = s0 ↔ at' c 2 = 0 ∨ Tr = 1) ∧
      (s1.Cp = at' c 0 + at' c 1 * Tr + at' c 2 / Tr ^ 2 + at' c 3 / Real.sqrt Tr + at' c 4 * Tr ^ 2 ↔ at' c 2 = 0 ∨ Tr = 1) ∧
      (s1.lgK = (s0 - h0 / Tr) / Rln10 ↔ at' c 2 = 0 ∨ Tr = 1) := by
  obtain ⟨a, b, d, e, f, rfl⟩ : ∃ a b d e f, c = [a, b, d, e, f] := by
    match c, hc with
    | [a, b, d, e, f], _ => exact ⟨a, b, d, e, f, rfl⟩
  have hR := Rln10_pos.ne'
  have hs : 0 < Real.sqrt Tr := Real.sqrt_pos.mpr hT
  have hss : Real.sqrt Tr * Real.sqrt Tr = Tr := Real.mul_self_sqrt hT.le
  have hsq := TS.val_powR_half (TS.temperature Tr)
  have hsq' : Tr ^ (0.5 : ℝ) = Real.sqrt Tr := by rw [Real.sqrt_eq_rpow]; norm_num
  have hfin : ∀ x : ℝ, d * x * (1 / Tr ^ 2 - 1) = 0 → x ≠ 0 → d = 0 ∨ Tr = 1 := by
    intro x h hx
    rcases mul_eq_zero.mp h with h | h
    · left; exact (mul_eq_zero.mp h).resolve_right hx
    · right
      have : (1 : ℝ) / Tr ^ 2 = 1 := by linarith
      field_simp at this
      nlinarith
  refine ⟨_, if_neg (by simp), ?_⟩
  simp only [cpToLogK, convS, convH, convCp, convLgK, at'_cons0, at'_cons1, at'_cons2, at'_cons3, at'_cons4, hsq',
    TS.val_add, TS.val_addL, TS.val_mulL, TS.val_mulR, TS.val_divL, TS.val_divR, TS.val_mul,
      TS.val_log, TS.val_neg, TS.val_sub, TS.val_subR, hsq, TS.val_temperature, TS.val_ofVal,
      show ∀ (a b c d e f : ℝ) (l : List ℝ), at' (a :: b :: c :: d :: e :: f :: l) 5 = f from fun _ _ _ _ _ _ _ => rfl,
      show ∀ (a b c d e f g : ℝ) (l : List ℝ), at' (a :: b :: c :: d :: e :: f :: g :: l) 6 = g from fun _ _ _ _ _ _ _ _ => rfl]
  simp only [show (2.0 : ℝ) = 2 by norm_num, show (0.5 : ℝ) = 1 / 2 by norm_num, show (3.0 : ℝ) = 3 by norm_num,
      show (1.0 : ℝ) = 1 by norm_num, show (6.0 : ℝ) = 6 by norm_num, show (-4.0 : ℝ) = -4 by norm_num]
  generalize Real.log Tr = L
  refine ⟨?_, ?_, ?_, ?_⟩
  · generalize Real.sqrt Tr = s at *
    subst hss
    field_simp; ring
  · rw [← sub_eq_zero]
    have : ∀ X : ℝ, X - s0 = d * (1 / 2) * (1 / Tr ^ 2 - 1) → (X - s0 = 0 ↔ d = 0 ∨ Tr = 1) := by
      intro X hX
      rw [hX]
      constructor
      · intro h; exact hfin _ h (by norm_num)
      · rintro (rfl | rfl) <;> ring
    apply this
    generalize Real.sqrt Tr = s at *
    subst hss
    field_simp; ring
  · rw [← sub_eq_zero]
    have : ∀ X Y : ℝ, X - Y = d * (-1) * (1 / Tr ^ 2 - 1) → (X - Y = 0 ↔ d = 0 ∨ Tr = 1) := by
      intro X Y hX
      rw [hX]
      constructor
      · intro h; exact hfin _ h (by norm_num)
      · rintro (rfl | rfl) <;> ring
    apply this
    generalize Real.sqrt Tr = s at *
    subst hss
    field_simp; ring
  · rw [← sub_eq_zero]
    have : ∀ X Y : ℝ, X - Y = d * (-1 / (2 * Rln10)) * (1 / Tr ^ 2 - 1) → (X - Y = 0 ↔ d = 0 ∨ Tr = 1) := by
      intro X Y hX
      rw [hX]
      constructor
      · intro h; exact hfin _ h (div_ne_zero (by norm_num) (mul_ne_zero (by norm_num) hR))
      · rintro (rfl | rfl) <;> ring
    apply this
    generalize Real.sqrt Tr = s at *
    subst hss
    field_simp; ring

/-- **C25, violation.** Converting a heat capacity `1/T²` at 298.15 K changes the reference entropy and reports Cp = 1. -/
theorem C25_reference_refuted : ∃ c : List ℝ, c.length = 5 ∧ ∀ k h0 s0 c0 l0 s1,
    convertCpToLogK 298.15 ⟨c, k, h0, s0, c0, l0⟩ = .ok s1 → s1.S ≠ s0 ∧ s1.Cp = 1 := by
  refine ⟨[0, 0, 1, 0, 0], rfl, fun k h0 s0 c0 l0 s1 h => ?_⟩
  obtain ⟨t, e1, -, e2, -⟩ := C25_reference_partial 298.15 (by norm_num) [0, 0, 1, 0, 0] rfl k h0 s0 c0 l0
  rw [h, Res.ok.injEq] at e1; subst e1
  constructor
  · intro h'
    have := e2.mp h'
    norm_num [at'] at this
  · simp only [convertCpToLogK, List.length_cons, List.length_nil] at h
    norm_num at h
    rw [← h]
    norm_num [convCp, at']

example : ([36.2, 0.01, -5e5, 0, 0] : List ℝ).length = 5 := rfl

/-- The conversion refuses fewer than five heat-capacity coefficients, and only then. -/
theorem C25_error (Tr : ℝ) (s : ConvState) : convertCpToLogK Tr s = .throw ↔ s.cp.length < 5 := by
  unfold convertCpToLogK
  by_cases h : s.cp.length < 5
  · simp [h]
  · simp [h]

/-! ### C68 -/

/-- **C68 (partial).** Full statement: the logK(T) coefficients generated from an extrapolation method reproduce that extrapolation at every
temperature. Proved for two and three terms (log K, H, S; G follows by C22); for one term it is false, see `C68_constant_refuted`. -/
theorem C68_generated_partial (T P : ℝ) (hT : 0 < T) (ref : TPR) (hH : ref.H.has) (hS : ref.S.has)
    (Tr : ℝ) (hTr : 0 < Tr) :
    (∃ r r', logKfTEntry T P ref [] [] Tr .EK2 = .ok r ∧
      logKfTEntry T P ref (calcLogK Tr ref.logK.val ref.S.val ref.H.val ref.Cp.val .EK2) [] Tr .LGK = .ok r' ∧
      r'.logK.val = r.logK.val ∧ r'.H.val = r.H.val ∧ r'.S.val = r.S.val) ∧
    (ref.Cp.has → ∃ r r', logKfTEntry T P ref [] [] Tr .EK3 = .ok r ∧
      logKfTEntry T P ref (calcLogK Tr ref.logK.val ref.S.val ref.H.val ref.Cp.val .EK3) [] Tr .LGK = .ok r' ∧
      r'.logK.val = r.logK.val ∧ r'.H.val = r.H.val ∧ r'.S.val = r.S.val ∧ r'.Cp.val = r.Cp.val) := by
  have hR := Rln10_pos.ne'
  constructor
  · obtain ⟨r, h1, h2, h3, h4, h5, h6, h7⟩ := entry_EK2 T P ref hH hS [] [] Tr
    obtain ⟨r', g1, g2, g3, g4, g5, g6, g7⟩ := entry_logK T P ref
      (calcLogK Tr ref.logK.val ref.S.val ref.H.val ref.Cp.val .EK2) (by simp [calcLogK]) Tr .LGK (Or.inl rfl)
    refine ⟨r, r', h1, g1, ?_, ?_, ?_⟩
    · rw [g2, h2]; simp [calcLogK, at']; field_simp; ring
    · rw [g5, h5]; simp [calcLogK, at']; field_simp
    · rw [g6, h6]; simp [calcLogK, at']; field_simp
  · intro hC
    obtain ⟨r, h1, h2, h3, h4, h5, h6, h7⟩ := entry_EK3 T P ref hH hS hC [] [] Tr
    obtain ⟨r', g1, g2, g3, g4, g5, g6, g7⟩ := entry_logK T P ref
      (calcLogK Tr ref.logK.val ref.S.val ref.H.val ref.Cp.val .EK3) (by simp [calcLogK]) Tr .LGK (Or.inl rfl)
    have hl : Real.log (T / Tr) = Real.log T - Real.log Tr := Real.log_div hT.ne' hTr.ne'
    refine ⟨r, r', h1, g1, ?_, ?_, ?_, ?_⟩
    · rw [g2, h2, hl]; simp [calcLogK, at']; field_simp; ring
    · rw [g5, h5]; simp [calcLogK, at']; field_simp; ring
    · rw [g6, h6, hl]; simp [calcLogK, at']; field_simp; ring
    · rw [g7, h7]; simp [calcLogK, at']; field_simp

/-- **C68, violation.** For the one-term methods the generated coefficients do not reproduce the extrapolation: constant log K is
replaced by S/(R ln 10), constant G by H.  And for a reaction that already has logK(T) coefficients they are discarded. -/
theorem C68_constant_refuted (T P : ℝ) (hT : 0 < T) (Tr : ℝ) :
    (∃ ref : TPR, ∃ r r', logKfTEntry T P ref [] [] Tr .EK0 = .ok r ∧
      logKfTEntry T P ref (calcLogK Tr ref.logK.val ref.S.val ref.H.val ref.Cp.val .EK0) [] Tr .LGK = .ok r' ∧
      r'.logK.val ≠ r.logK.val) ∧
    (∃ ref : TPR, ∃ r r', logKfTEntry T P ref [] [] Tr .EK1 = .ok r ∧
      logKfTEntry T P ref (calcLogK Tr ref.logK.val ref.S.val ref.H.val ref.Cp.val .EK1) [] Tr .LGK = .ok r' ∧
      r'.G.val ≠ r.G.val) ∧
    (∃ (A : List ℝ) (ref : TPR), ∃ r r', logKfTEntry T P ref A [] Tr .LGK = .ok r ∧
      logKfTEntry T P ref (calcLogK Tr ref.logK.val ref.S.val ref.H.val ref.Cp.val .LGK) [] Tr .LGK = .ok r' ∧
      r'.logK.val ≠ r.logK.val) := by
  refine ⟨?_, ?_, ?_⟩
  · let ref : TPR := { TPR.default with logK := TS.mk5 5 0 0 0 .read }
    obtain ⟨⟨r, h1, h2, -⟩, -⟩ := C22_one_term T P hT.ne' ref [] [] Tr
    obtain ⟨r', g1, g2, -⟩ := entry_logK T P ref
      (calcLogK Tr ref.logK.val ref.S.val ref.H.val ref.Cp.val .EK0) (by simp [calcLogK]) Tr .LGK (Or.inl rfl)
    refine ⟨ref, r, r', h1, g1, ?_⟩
    rw [g2, h2]
    simp [ref, calcLogK, at', TPR.default]
  · let ref : TPR := { TPR.default with G := TS.mk5 5 0 0 0 .read }
    obtain ⟨-, ⟨r, h1, h2, -⟩⟩ := C22_one_term T P hT.ne' ref [] [] Tr
    obtain ⟨r', g1, g2, g3, g4, -⟩ := entry_logK T P ref
      (calcLogK Tr ref.logK.val ref.S.val ref.H.val ref.Cp.val .EK1) (by simp [calcLogK]) Tr .LGK (Or.inl rfl)
    refine ⟨ref, r, r', h1, g1, ?_⟩
    rw [g4, h2, g2]
    simp [ref, calcLogK, at', TPR.default]
  · let ref : TPR := { TPR.default with logK := TS.mk5 5 0 0 0 .read }
    obtain ⟨r', g1, g2, -⟩ := entry_logK T P { TPR.default with logK := TS.mk5 (1 / T + 1) 0 0 0 .read }
      (calcLogK Tr (1 / T + 1) 0 0 0 .LGK) (by simp [calcLogK]) Tr .LGK (Or.inl rfl)
    obtain ⟨r, h1, h2, -⟩ := entry_logK T P { TPR.default with logK := TS.mk5 (1 / T + 1) 0 0 0 .read } [0, 0, 1] (by simp) Tr
      .LGK (Or.inl rfl)
    refine ⟨[0, 0, 1], { TPR.default with logK := TS.mk5 (1 / T + 1) 0 0 0 .read }, r, r', h1, g1, ?_⟩
    rw [g2, h2]
    simp [calcLogK, at']

/-! ### C69 -/

/-- **C69 (partial).** Full statement: the reported internal and Helmholtz energies are U = H - P V and A = U - T S (pressure in bar, volume
in J/bar). Proved whenever the reported enthalpy is not zero; otherwise false, see `C69_zero_enthalpy_refuted`. -/
theorem C69_logK_energies_partial (T P : ℝ) (ref : TPR) (A Cp : List ℝ) (Tr : ℝ) (CE : CorrT) (r : TPR)
    (h : logKfTEntry T P ref A Cp Tr CE = .ok r) (hH : r.H.val ≠ 0) :
    r.V = ref.V ∧ r.U.val = r.H.val - P / 1e5 * r.V.val ∧ r.A.val = r.U.val - T * r.S.val := by
  simp only [logKfTEntry, logKfT] at h
  cases hm : switchT (TS.temperature T) ref.G (fillH (TS.temperature T) ref) (fillS (TS.temperature T) ref) ref.Cp ref.logK A Cp Tr
    (if CE = .EK3 then determineMethod (fillH (TS.temperature T) ref) (fillS (TS.temperature T) ref) ref.Cp else CE) with
  | ok m =>
    rw [hm] at h
    simp only [Res.ok_bind, Res.ok.injEq] at h
    subst h
    have hH' : m.H.val ≠ 0 := hH
    simp [finishLogK, hH']
  | throw => rw [hm] at h; simp at h
  | ub => rw [hm] at h; simp at h

/-- **C69, violation.** For a reaction with zero enthalpy U and A are reported as undefined zeros even when all data are known. -/
theorem C69_zero_enthalpy_refuted : ∃ ref : TPR, ref.H.has ∧ ref.S.has ∧ ref.V.has ∧ ∀ T P Tr, ∃ r,
    logKfTEntry T P ref [] [] Tr .EK2 = .ok r ∧ ¬ r.U.has ∧ ¬ r.A.has ∧ r.U.val = 0 ∧
      (P ≠ 0 → r.U.val ≠ r.H.val - P / 1e5 * r.V.val) := by
  refine ⟨{ TPR.default with H := TS.mk5 0 0 0 0 .read, S := TS.mk5 3 0 0 0 .read, V := TS.mk5 1 0 0 0 .read },
    by simp [TS.has, TS.mk5], by simp [TS.has, TS.mk5], by simp [TS.has, TS.mk5], fun T P Tr => ?_⟩
  refine ⟨finishLogK (TS.temperature T) (TS.divAssignD (TS.pressure P) 1e5) (TS.mk5 1 0 0 0 .read)
    ⟨TS.divR (TS.sub (TS.mk5 3 0 0 0 .read) (TS.div (TS.mk5 0 0 0 0 .read) (TS.temperature T))) Rln10, TS.mk5 0 0 0 0 .read,
      TS.mk5 3 0 0 0 .read, TS.default⟩, ?_, ?_⟩
  · simp [logKfTEntry, logKfT, switchT, fillH, fillS, TS.has, TS.mk5, TPR.default]
  · simp [finishLogK]; norm_num

/-- A reaction with H = -10, S = 3, V = 1 meets the hypotheses. -/
example : ∃ (ref r : TPR), logKfTEntry 300 1e5 ref [] [] 298.15 .EK2 = .ok r ∧ r.H.val ≠ 0 := by
  let ref : TPR := { TPR.default with H := TS.mk5 (-10) 0 0 0 .read, S := TS.mk5 3 0 0 0 .read, V := TS.mk5 1 0 0 0 .read }
  obtain ⟨r, h1, -, -, -, h5, -⟩ := entry_EK2 300 1e5 ref (by simp [ref, TS.has, TS.mk5]) (by simp [ref, TS.has, TS.mk5]) [] [] 298.15
  exact ⟨ref, r, h1, by rw [h5]; simp [ref, TS.mk5]⟩

end ThermoFun

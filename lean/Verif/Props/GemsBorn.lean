import Verif.Props.Gems

/-!
# C126: the Born functions of the gems water code

`Born92` reports the dielectric constant ε and the functions Z = −1/ε, Y, Q and X.  They have to be the derivatives of Z along the equation of state:
Y = ∂Z/∂T and X = ∂Y/∂T at constant pressure, Q = ∂Z/∂P at constant temperature (per bar, so that 10·Q is the derivative by a pressure in MPa).
-/

namespace ThermoFun

namespace Gems

open WP (el)
open HGK (eli)

variable {T P : ℝ} {v : ℝ → ℝ → ℝ}

lemma jnC_deriv (hT : T ≠ 0) : ∀ k, HasDerivAt (fun T => jnC T k) (jnCt T k) T := by
  have hr : jnTref ≠ 0 := by unfold jnTref; norm_num
  have hq : T / jnTref ≠ 0 := div_ne_zero hT hr
  have q : HasDerivAt (fun T => T / jnTref) (1 / jnTref) T := (hasDerivAt_id' T).div_const _
  intro k
  match k with
  | 0 => exact hasDerivAt_const _ _
  | 1 => exact ((hasDerivAt_const T (el jnA 0)).div q hq).congr_deriv (by simp only [jnCt, Pi.pow_apply, Nat.add_one_sub_one, pow_one, Nat.cast_ofNat]; field_simp; ring)
  | 2 =>
    exact ((((hasDerivAt_const T (el jnA 1)).div q hq).add_const (el jnA 2)).add (q.const_mul (el jnA 3))).congr_deriv (by
      simp only [jnCt, Pi.pow_apply, Nat.add_one_sub_one, pow_one, Nat.cast_ofNat]; field_simp; ring)
  | 3 =>
    exact ((((hasDerivAt_const T (el jnA 4)).div q hq).add (q.const_mul (el jnA 5))).add ((q.pow 2).const_mul (el jnA 6))).congr_deriv (by
      simp only [jnCt, Pi.pow_apply, Nat.add_one_sub_one, pow_one, Nat.cast_ofNat]; field_simp; ring)
  | k + 4 =>
    exact ((((hasDerivAt_const T (el jnA 7)).div (q.pow 2) (pow_ne_zero 2 hq)).add ((hasDerivAt_const T (el jnA 8)).div q hq)).add_const (el jnA 9)).congr_deriv (by
      simp only [jnCt, Pi.pow_apply, Nat.add_one_sub_one, pow_one, Nat.cast_ofNat]; field_simp; ring)

lemma jnCt_deriv (hT : T ≠ 0) : ∀ k, HasDerivAt (fun T => jnCt T k) (jnCtt T k) T := by
  have hr : jnTref ≠ 0 := by unfold jnTref; norm_num
  have q := hasDerivAt_id' T
  intro k
  match k with
  | 0 => exact hasDerivAt_const _ _
  | 1 => exact ((hasDerivAt_const T (-el jnA 0 * jnTref)).div (q.pow 2) (pow_ne_zero 2 hT)).congr_deriv (by simp only [jnCtt, Pi.pow_apply, Nat.add_one_sub_one, pow_one, Nat.cast_ofNat]; field_simp; ring)
  | 2 => exact (((hasDerivAt_const T (-el jnA 1 * jnTref)).div (q.pow 2) (pow_ne_zero 2 hT)).add_const _).congr_deriv (by simp only [jnCtt, Pi.pow_apply, Nat.add_one_sub_one, pow_one, Nat.cast_ofNat]; field_simp; ring)
  | 3 =>
    exact ((((hasDerivAt_const T (-el jnA 4 * jnTref)).div (q.pow 2) (pow_ne_zero 2 hT)).add_const (el jnA 5 / jnTref)).add
      ((q.const_mul (2 * el jnA 6)).div_const (jnTref ^ 2))).congr_deriv (by simp only [jnCtt, Pi.pow_apply, Nat.add_one_sub_one, pow_one, Nat.cast_ofNat]; field_simp; ring)
  | k + 4 =>
    exact (((hasDerivAt_const T (-2 * el jnA 7 * jnTref ^ 2)).div (q.pow 3) (pow_ne_zero 3 hT)).sub
      ((hasDerivAt_const T (el jnA 8 * jnTref)).div (q.pow 2) (pow_ne_zero 2 hT))).congr_deriv (by simp only [jnCtt, Pi.pow_apply, Nat.add_one_sub_one, pow_one, Nat.cast_ofNat]; field_simp; ring)

/-- Σ k·c_k·D^k -/
noncomputable def jnD1 (T D : ℝ) : ℝ := jnC T 1 * D + 2 * jnC T 2 * D ^ 2 + 3 * jnC T 3 * D ^ 3 + 4 * jnC T 4 * D ^ 4

lemma jn_eps (T D b a x : ℝ) : (jn91 T D b a x).eps = jnC T 0 + jnC T 1 * D + jnC T 2 * D ^ 2 + jnC T 3 * D ^ 3 + jnC T 4 * D ^ 4 := by
  simp [jn91, List.range_succ]

lemma jn_dedP (T D b a x : ℝ) : (jn91 T D b a x).dedP = jnD1 T D * b := by
  simp [jn91, List.range_succ, jnD1]

lemma jn_dedT (T D b a x : ℝ) : (jn91 T D b a x).dedT =
    jnCt T 0 + jnCt T 1 * D + jnCt T 2 * D ^ 2 + jnCt T 3 * D ^ 3 + jnCt T 4 * D ^ 4 - a * jnD1 T D := by
  simp [jn91, List.range_succ, jnD1]; ring

lemma jn_d2 (T D b a x y : ℝ) : (jn91 T D b a x).d2edT2 = (jn91 T D b a y).d2edT2 - (x - y) * jnD1 T D := by
  simp [jn91, List.range_succ, jnD1]; ring

/-- The dielectric constant, its derivative by temperature and the second one, at a density D(T) with expansivity a(T). -/
lemma jn_along {D a : ℝ → ℝ} {a' b x : ℝ} (hT : T ≠ 0) (hD : HasDerivAt D (-(a T) * D T) T) (ha : HasDerivAt a a' T) :
    HasDerivAt (fun T => (jn91 T (D T) b (a T) x).eps) (jn91 T (D T) b (a T) x).dedT T ∧
    HasDerivAt (fun T => (jn91 T (D T) b (a T) x).dedT) (jn91 T (D T) b (a T) a').d2edT2 T := by
  have c := jnC_deriv hT
  have c' := jnCt_deriv hT
  constructor
  · simp only [jn_eps]
    refine (((((c 0).add ((c 1).mul hD)).add ((c 2).mul (hD.pow 2))).add ((c 3).mul (hD.pow 3))).add ((c 4).mul (hD.pow 4))).congr_deriv ?_
    rw [jn_dedT, jnD1]; simp only [Pi.pow_apply]; ring
  · simp only [jn_dedT, jnD1]
    refine ((((((c' 0).add ((c' 1).mul hD)).add ((c' 2).mul (hD.pow 2))).add ((c' 3).mul (hD.pow 3))).add ((c' 4).mul (hD.pow 4))).sub
      (ha.mul (((((c 1).mul hD).add (((c 2).const_mul 2).mul (hD.pow 2))).add (((c 3).const_mul 3).mul (hD.pow 3))).add (((c 4).const_mul 4).mul (hD.pow 4))))).congr_deriv ?_
    simp [jn91, List.range_succ]; ring

lemma jn_press {D : ℝ → ℝ} {k b a x : ℝ} (hD : HasDerivAt D (k * D P) P) :
    HasDerivAt (fun P => (jn91 T (D P) b a x).eps) (k * jnD1 T (D P)) P := by
  simp only [jn_eps]
  refine (((((hasDerivAt_const P (jnC T 0)).add (hD.const_mul (jnC T 1))).add ((hD.pow 2).const_mul (jnC T 2))).add ((hD.pow 3).const_mul (jnC T 3))).add
    ((hD.pow 4).const_mul (jnC T 4))).congr_deriv ?_
  rw [jnD1]; ring

/-- Within its range of temperature and pressure, `Born92` returns the functions of `JN91`. -/
lemma props_born (tt : Triple) (sat : ℕ) (hT : T < 1273.151) (hP : P < 500.0001) :
    let e := jn91 T (v T P) (props tt sat v T P).beta (props tt sat v T P).alpha (props tt sat v T P).dAldT
    (props tt sat v T P).diel = e.eps ∧ (props tt sat v T P).Z = -1 / e.eps ∧ (props tt sat v T P).Q = 1 / e.eps ^ 2 * e.dedP ∧
    (props tt sat v T P).Y = 1 / e.eps ^ 2 * e.dedT ∧ (props tt sat v T P).X = 1 / e.eps ^ 2 * e.d2edT2 - 2 * e.eps * (1 / e.eps ^ 2 * e.dedT) ^ 2 := by
  intro e
  have hb : born92 T (P * 1.0e1) (v T P * 1.0e3 / 1.0e3) ((props tt sat v T P).beta * un.fp / 1.0e1) (props tt sat v T P).alpha (props tt sat v T P).dAldT = epsBrn e := by
    have e1 : v T P * 1.0e3 / 1.0e3 = v T P := by norm_num
    have e2 : (props tt sat v T P).beta * un.fp / 1.0e1 = (props tt sat v T P).beta := by rw [un_fp]; norm_num
    rw [e1, e2, born92, if_neg]
    rintro (h | h) <;> norm_num at h hT hP <;> linarith
  have h1 : (props tt sat v T P).diel = (epsBrn e).eps := congrArg Born.eps hb
  have h2 : (props tt sat v T P).Z = (epsBrn e).Z := congrArg Born.Z hb
  have h3 : (props tt sat v T P).Q = (epsBrn e).Q := congrArg Born.Q hb
  have h4 : (props tt sat v T P).Y = (epsBrn e).Y := congrArg Born.Y hb
  have h5 : (props tt sat v T P).X = (epsBrn e).X := congrArg Born.X hb
  exact ⟨h1, h2, h3, h4, h5⟩

/-- What is common to C126 and its refutation: Z, Y and Q are right, and X lacks the error of `dAldT`. -/
lemma born_core (tt : Triple) (sat : ℕ) (h : Den v T P) (hT : T < 1273.151) (hP : P < 500.0001) (h0 : (props tt sat v T P).diel ≠ 0) {a' : ℝ}
    (ha : HasDerivAt (fun T => (props tt sat v T P).alpha) a' T) :
    (props tt sat v T P).Z = -1 / (props tt sat v T P).diel ∧
    HasDerivAt (fun T => (props tt sat v T P).Z) (props tt sat v T P).Y T ∧
    HasDerivAt (fun P => (props tt sat v T P).Z) (10 * (props tt sat v T P).Q) P ∧
    HasDerivAt (fun T => (props tt sat v T P).Y) ((props tt sat v T P).X +
      ((props tt sat v T P).dAldT - a') * jnD1 T (v T P) / (props tt sat v T P).diel ^ 2) T := by
  obtain ⟨c1, c2, -⟩ := C123_consistent tt sat h
  have ht := h.ok.ht.ne'
  have evT : ∀ᶠ T' in nhds T, T' < 1273.151 := eventually_lt_nhds hT
  have evP : ∀ᶠ P' in nhds P, P' < 500.0001 := eventually_lt_nhds hP
  obtain ⟨p1, p2, p3, p4, p5⟩ := props_born (v := v) tt sat hT hP
  obtain ⟨d1, d2⟩ := jn_along (D := fun T => v T P) (a := fun T => (props tt sat v T P).alpha) (b := (props tt sat v T P).beta)
    (x := (props tt sat v T P).dAldT) ht c1 ha
  have d3 := jn_press (T := T) (D := fun P => v T P) (k := 10 * (props tt sat v T P).beta) (b := (props tt sat v T P).beta) (a := (props tt sat v T P).alpha)
    (x := (props tt sat v T P).dAldT) c2
  have h0' := h0
  rw [p1] at h0'
  refine ⟨by rw [p2, p1], ?_, ?_, ?_⟩
  · have g := (hasDerivAt_const T (-1 : ℝ)).div d1 h0'
    refine (g.congr_deriv ?_).congr_of_eventuallyEq (evT.mono fun T' hT' => ?_)
    · rw [p4]; field_simp; ring
    · obtain ⟨-, q2, -⟩ := props_born (v := v) tt sat hT' hP
      simp only [q2, jn_eps, Pi.div_apply]
  · have g := (hasDerivAt_const P (-1 : ℝ)).div d3 h0'
    refine (g.congr_deriv ?_).congr_of_eventuallyEq (evP.mono fun P' hP' => ?_)
    · rw [p3, jn_dedP]; field_simp; ring
    · obtain ⟨-, q2, -⟩ := props_born (v := v) tt sat hT hP'
      simp only [q2, jn_eps, Pi.div_apply]
  · have g := ((hasDerivAt_const T (1 : ℝ)).div (d1.pow 2) (pow_ne_zero 2 h0')).mul d2
    refine (g.congr_deriv ?_).congr_of_eventuallyEq (evT.mono fun T' hT' => ?_)
    · rw [p5, p1, jn_d2 _ _ _ _ a' (props tt sat v T P).dAldT]
      simp only [Pi.div_apply, Pi.pow_apply, Nat.add_one_sub_one, pow_one, Nat.cast_ofNat]
      field_simp; ring
    · obtain ⟨-, -, -, q4, -⟩ := props_born (v := v) tt sat hT' hP
      simp only [q4, jn_eps, jn_dedT, Pi.div_apply, Pi.mul_apply, Pi.pow_apply]

/-- C126, proved part.  Up to 1000 °C and 5000 bar, where the dielectric constant is not 0: Z = −1/ε, Y = ∂Z/∂T, 10·Q = ∂Z/∂P; and X = ∂Y/∂T for T ≤ 522 K or T ≥ 758 K.
Missing from the property: X between 522 and 758 K, where it is refuted. -/
theorem C126_partial (tt : Triple) (sat : ℕ) (h : Den v T P) (hT : T < 1273.151) (hP : P < 500.0001) (h0 : (props tt sat v T P).diel ≠ 0) :
    (props tt sat v T P).Z = -1 / (props tt sat v T P).diel ∧
    HasDerivAt (fun T => (props tt sat v T P).Z) (props tt sat v T P).Y T ∧
    HasDerivAt (fun P => (props tt sat v T P).Z) (10 * (props tt sat v T P).Q) P ∧
    (T ≤ 522 ∨ 758 ≤ T → HasDerivAt (fun T => (props tt sat v T P).Y) (props tt sat v T P).X T) := by
  obtain ⟨c, n, c', n', -, -, h1, -⟩ := h.al_grad
  obtain ⟨b1, b2, b3, -⟩ := born_core tt sat h hT hP h0 h1
  refine ⟨b1, b2, b3, fun hr => ?_⟩
  obtain ⟨-, -, -, b4⟩ := born_core tt sat h hT hP h0 (C125_partial tt sat h hr)
  exact b4.congr_deriv (by ring)

/-! ### States -/

/-- An enclosure of `jnC`. -/
def jnCI (T : Iv) : ℕ → Iv
  | 0 => .rat 1
  | 1 => elI jnA 0 / (T / .rat 298.15)
  | 2 => elI jnA 1 / (T / .rat 298.15) + elI jnA 2 + elI jnA 3 * (T / .rat 298.15)
  | 3 => elI jnA 4 / (T / .rat 298.15) + elI jnA 5 * (T / .rat 298.15) + elI jnA 6 * (T / .rat 298.15) ^ 2
  | _ => elI jnA 7 / (T / .rat 298.15) ^ 2 + elI jnA 8 / (T / .rat 298.15) + elI jnA 9

lemma jnC_enc {t : ℝ} {tI : Iv} (ht : Enc t tI) : ∀ k, Enc (jnC t k) (jnCI tI k) := by
  have z := elI_enc jnA
  have hr : Enc jnTref (.rat 298.15) := Enc.lit _ (by unfold jnTref; norm_num)
  have z0 := z 0
  have z1 := z 1
  have z2 := z 2
  have z3 := z 3
  have z4 := z 4
  have z5 := z 5
  have z6 := z 6
  have z7 := z 7
  have z8 := z 8
  have z9 := z 9
  intro k
  match k with
  | 0 => exact Enc.lit 1 (by norm_num [jnC])
  | 1 => simp only [jnC, jnCI]; enc
  | 2 => simp only [jnC, jnCI]; enc
  | 3 => simp only [jnC, jnCI]; enc
  | k + 4 => simp only [jnC, jnCI]; enc

def epsI (T D : Iv) : Iv := jnCI T 0 + jnCI T 1 * D + jnCI T 2 * D ^ 2 + jnCI T 3 * D ^ 3 + jnCI T 4 * D ^ 4
def jnD1I (T D : Iv) : Iv := jnCI T 1 * D + .rat 2 * jnCI T 2 * D ^ 2 + .rat 3 * jnCI T 3 * D ^ 3 + .rat 4 * jnCI T 4 * D ^ 4

lemma eps_enc {t d : ℝ} {tI dI : Iv} (ht : Enc t tI) (hd : Enc d dI) (b a x : ℝ) : Enc (jn91 t d b a x).eps (epsI tI dI) := by
  rw [jn_eps]
  have c0 := jnC_enc ht 0
  have c1 := jnC_enc ht 1
  have c2 := jnC_enc ht 2
  have c3 := jnC_enc ht 3
  have c4 := jnC_enc ht 4
  unfold epsI
  enc

lemma jnD1_enc {t d : ℝ} {tI dI : Iv} (ht : Enc t tI) (hd : Enc d dI) : Enc (jnD1 t d) (jnD1I tI dI) := by
  have c1 := jnC_enc ht 1
  have c2 := jnC_enc ht 2
  have c3 := jnC_enc ht 3
  have c4 := jnC_enc ht 4
  unfold jnD1 jnD1I
  enc

/-- Water at 298.15 K and 0.9971 g/cm³: under less than 500 MPa, the dielectric constant is between 78.2 and 78.3. -/
example : ∃ (v : ℝ → ℝ → ℝ) (P : ℝ), Den v 298.15 P ∧ v 298.15 P = 0.9971 ∧ P < 500.0001 ∧ 78.2 < (props tripleNEA 0 v 298.15 P).diel ∧
    (props tripleNEA 0 v 298.15 P).diel < 78.3 := by
  obtain ⟨v, h, hv⟩ := den_exists ok_298 (by have := dpdd_298; linarith)
  have ht := Enc.lit (x := 298.15) 298.15 (by norm_num)
  have hd := Enc.lit (x := 0.9971) 0.9971 (by norm_num)
  have hp : presOf (evalAt 298.15 0.9971) 298.15 0.9971 < 500.0001 := by
    have l := (pres_enc ht hd).lt_rat 500 (by decide +kernel)
    push_cast at l
    linarith
  refine ⟨v, _, h, hv, hp, ?_⟩
  rw [(props_born tripleNEA 0 (by norm_num) hp).1, hv]
  have l1 : ∀ b a x, 78.2 < (jn91 298.15 0.9971 b a x).eps := fun b a x => by
    have l := (eps_enc ht hd b a x).rat_lt 78.2 (by decide +kernel)
    push_cast at l; norm_num at l ⊢; exact l
  have l2 : ∀ b a x, (jn91 298.15 0.9971 b a x).eps < 78.3 := fun b a x => by
    have l := (eps_enc ht hd b a x).lt_rat 78.3 (by decide +kernel)
    push_cast at l; norm_num at l ⊢; exact l
  exact ⟨l1 _ _ _, l2 _ _ _⟩

/-- C126, refuted.  At 641 K and 0.33 g/cm³, X is not the derivative of Y along the isobar. -/
theorem C126_refuted : ∃ (v : ℝ → ℝ → ℝ) (P : ℝ), Den v 641 P ∧ v 641 P = 0.33 ∧ (props tripleNEA 0 v 641 P).diel ≠ 0 ∧
    ∃ D, HasDerivAt (fun T => (props tripleNEA 0 v T P).Y) D 641 ∧ (props tripleNEA 0 v 641 P).X - D > 0.5 := by
  obtain ⟨v, h, hv⟩ := den_exists ok_641 (by have := dpdd_641; linarith)
  have ht := Enc.lit (x := 641) 641 (by norm_num)
  have hd := Enc.lit (x := 0.33) 0.33 (by norm_num)
  have hp : presOf (evalAt 641 0.33) 641 0.33 < 500.0001 := by
    have l := (pres_enc ht hd).lt_rat 500 (by decide +kernel)
    push_cast at l
    linarith
  have l1 : ∀ b a x, 5.9 < (jn91 641 0.33 b a x).eps := fun b a x => by
    have l := (eps_enc ht hd b a x).rat_lt 5.9 (by decide +kernel)
    push_cast at l; norm_num at l ⊢; exact l
  have l2 : ∀ b a x, (jn91 641 0.33 b a x).eps < 6 := fun b a x => by
    have l := (eps_enc ht hd b a x).lt_rat 6 (by decide +kernel)
    push_cast at l; exact l
  have l3 : 7 < jnD1 641 0.33 := by
    have l := (jnD1_enc ht hd).rat_lt 7 (by decide +kernel)
    push_cast at l; exact l
  obtain ⟨⟨D, hD, d1, d2⟩, hda⟩ := al_641 tripleNEA 0 h hv
  have e := (props_born (v := v) tripleNEA 0 (T := 641) (by norm_num) hp).1
  have e1 : 5.9 < (props tripleNEA 0 v 641 (presOf (evalAt 641 0.33) 641 0.33)).diel := by rw [e, hv]; exact l1 _ _ _
  have e2 : (props tripleNEA 0 v 641 (presOf (evalAt 641 0.33) 641 0.33)).diel < 6 := by rw [e, hv]; exact l2 _ _ _
  have h0 : (props tripleNEA 0 v 641 (presOf (evalAt 641 0.33) 641 0.33)).diel ≠ 0 := by intro h0; rw [h0] at e1; norm_num at e1
  obtain ⟨-, -, -, b4⟩ := born_core tripleNEA 0 h (by norm_num) hp h0 hD
  refine ⟨v, _, h, hv, h0, _, b4, ?_⟩
  rw [hv]
  generalize (props tripleNEA 0 v 641 (presOf (evalAt 641 0.33) 641 0.33)).diel = ε at *
  generalize (props tripleNEA 0 v 641 (presOf (evalAt 641 0.33) 641 0.33)).dAldT = x at *
  have e3 : 0 < ε := by linarith
  have e4 : ε ^ 2 < 36 := by nlinarith
  have e5 : (x - D) * jnD1 641 0.33 / ε ^ 2 < -0.5 := by
    rw [div_lt_iff₀ (by positivity)]
    nlinarith
  linarith

end Gems

end ThermoFun

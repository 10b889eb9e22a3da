import Verif.Lemmas.StpExample

/-!
# The equation of state of Sterner and Pitzer: Helmholtz energy (C119), density and residual properties (C120)

Densities in mol/cm³, pressures in MPa.
-/

namespace ThermoFun.Stp

open Topology Filter
open Gas (Fug)

/-! ### Specification -/

/-- `F` holds a function of temperature and density with the partial derivatives the code uses. -/
structure Derivatives (F : ℝ → ℝ → Helm) (T y : ℝ) : Prop where
  fT : HasDerivAt (fun t => (F t y).f) (F T y).fT T
  fD : HasDerivAt (fun z => (F T z).f) (F T y).fD y
  fTT : HasDerivAt (fun t => (F t y).fT) (F T y).fTT T
  fTD : HasDerivAt (fun z => (F T z).fT) (F T y).fTD y
  fDT : HasDerivAt (fun t => (F t y).fD) (F T y).fTD T
  fDD : HasDerivAt (fun z => (F T z).fD) (F T y).fDD y
  fTTD : HasDerivAt (fun z => (F T z).fTT) (F T y).fTTD y
  fTDD : HasDerivAt (fun z => (F T z).fTD) (F T y).fTDD y
  fDDD : HasDerivAt (fun z => (F T z).fDD) (F T y).fDDD y

/-- A density as a function of temperature and pressure: it has the pressure given. -/
structure IsDensity (p v : ℝ → ℝ → ℝ) (T P : ℝ) : Prop where
  cont : ContinuousAt (fun q : ℝ × ℝ => v q.1 q.2) (T, P)
  solves : ∀ᶠ q : ℝ × ℝ in 𝓝 (T, P), p q.1 (v q.1 q.2) = q.2

/-! ### C119 -/

/-- **C119** (derivatives): in the range of temperatures and densities the code admits, all derivatives of the Helmholtz energy are right.
Missing from C119: H2O at one temperature (`C119_water_refuted`). -/
theorem C119_derivatives_partial (m : Fluid) (T y : ℝ) (h1 : 200 ≤ T) (h2 : T ≤ 2000) (y0 : 0 ≤ y) (y1 : y ≤ m.rhomax)
    (h7 : m = .H2O → T ≠ 0.65537898e5 / 0.18810675e3) : Derivatives (helmholtz m.cf) T y := by
  obtain ⟨g, J⟩ := (regular h1 h2 m y0 y1 h7).jet
  exact ⟨J.f.dx, J.f.dy, J.fT.dx, J.fT.dy, J.fD.dx, J.fD.dy, J.fTT.dy, J.fTD.dy, J.fDD.dy⟩

/-- **C119** (pressure): p = RT(ρ + ρ² ∂Φ/∂ρ), and the slope of the Newton iteration is its derivative. -/
theorem C119_pressure_partial (m : Fluid) (T y : ℝ) (h1 : 200 ≤ T) (h2 : T ≤ 2000) (y0 : 0 ≤ y) (y1 : y ≤ m.rhomax)
    (h7 : m = .H2O → T ≠ 0.65537898e5 / 0.18810675e3) :
    ∃ d, HasDerivAt (fun z => (helmholtz m.cf T z).f) d y ∧ pressure m.cf T y = 8.31451 * T * (y + y ^ 2 * d) ∧
      HasDerivAt (fun z => pressure m.cf T z) (slope m.cf T y) y :=
  ⟨_, (C119_derivatives_partial m T y h1 h2 y0 y1 h7).fD, (pressure_eq m.cf T y).1, pressure_d m.cf (poly_pos h1 h2 m y0 y1).ne'⟩

example : Derivatives (helmholtz (Fluid.cf .CO2)) 1600 1e-5 ∧ Derivatives (helmholtz (Fluid.cf .H2O)) 700 0.03 :=
  ⟨C119_derivatives_partial .CO2 1600 1e-5 (by norm_num) (by norm_num) (by norm_num) (by unfold Fluid.rhomax; norm_num) (by simp),
    C119_derivatives_partial .H2O 700 0.03 (by norm_num) (by norm_num) (by norm_num) (by unfold Fluid.rhomax; norm_num) (by norm_num)⟩

/-- **C119** is violated for H2O at 348.4080... K: pressure and slope are as at any other temperature, but whatever pressure and record, there are no
fugacity and residual properties (they are NaN, or never set), for the code divides by a coefficient that is zero there. -/
theorem C119_water_refuted : ∃ T : ℝ, 348 < T ∧ T < 349 ∧
    (∀ y, 0 ≤ y → y ≤ Fluid.rhomax .H2O → HasDerivAt (fun z => pressure (Fluid.cf .H2O) T z) (slope (Fluid.cf .H2O) T y) y) ∧
    ∀ (Pbar : ℝ) (k : Nat → ℝ) (f : Fug), fugacityPT .H2O T Pbar k ≠ .ok (some f) := by
  refine ⟨T7, by unfold T7; norm_num, by unfold T7; norm_num, ?_, ?_⟩
  · exact fun y y0 y1 => pressure_d _ (poly_pos (by unfold T7; norm_num) (by unfold T7; norm_num) .H2O y0 y1).ne'
  · intro Pbar k f h
    have hz : (Fluid.cf .H2O 7).c T7 = 0 := (h_c7 (by unfold T7; norm_num)).mpr rfl
    unfold fugacityPT at h
    split_ifs at h
    unfold fugacity at h
    split at h
    · cases h
    · split at h
      · cases h
      · cases h
      · rw [if_pos (.inr (.inr (.inl hz)))] at h
        cases h

/-! ### C120 -/

/-- **C120** (density): near every state of the code's range at which the slope of the pressure is not 0 there is a density as a function of temperature
and pressure. -/
theorem C120_density_exists_partial (m : Fluid) (T y : ℝ) (h1 : 200 ≤ T) (h2 : T ≤ 2000) (y0 : 0 ≤ y) (y1 : y ≤ m.rhomax)
    (h7 : m = .H2O → T ≠ 0.65537898e5 / 0.18810675e3) (hs : slope m.cf T y ≠ 0) :
    ∃ v : ℝ → ℝ → ℝ, IsDensity (pressure m.cf) v T (pressure m.cf T y) ∧ v T (pressure m.cf T y) = y := by
  obtain ⟨v, a, b, c⟩ := density_exists (regular h1 h2 m y0 y1 h7) hs
  exact ⟨v, ⟨a, c⟩, b⟩

/-- **C120** (residual properties): computed at a density that has the pressure given, the residual properties belong together: the pressure derivative
of G is V - RT/P (here per MPa; the code's volume is in J/bar), S is minus the temperature derivative of G, H = G + TS, and the heat capacity is
the temperature derivative of H.
Missing from C120: the code's density has the given pressure only approximately (`C120_newton_partial`). -/
theorem C120_residual_partial (m : Fluid) (T P : ℝ) (v : ℝ → ℝ → ℝ) (h1 : 200 ≤ T) (h2 : T ≤ 2000) (hv : IsDensity (pressure m.cf) v T P)
    (y0 : 0 < v T P) (y1 : v T P ≤ m.rhomax) (h7 : m = .H2O → T ≠ 0.65537898e5 / 0.18810675e3) (hP : 0 < P) (hs : slope m.cf T (v T P) ≠ 0) :
    ∃ S H : ℝ → ℝ, (∀ t, (props m.cf t P (v t P)).s = some (S t) ∧ (props m.cf t P (v t P)).h = some (H t)) ∧
      HasDerivAt (fun q => (props m.cf T q (v T q)).g) (10 * (props m.cf T P (v T P)).v - 8.31451 * T / P) P ∧
      HasDerivAt (fun t => (props m.cf t P (v t P)).g) (-S T) T ∧
      H T = (props m.cf T P (v T P)).g + T * S T ∧
      HasDerivAt H (props m.cf T P (v T P)).cp T := by
  have hR := Gas.Rpos
  have hT : 0 < T := by linarith
  have r := regular h1 h2 m y0.le y1 h7
  have D := density_grad hv.cont hv.solves r hs
  have e : pressure m.cf T (v T P) = P := hv.solves.self_of_nhds
  have gT := g_curve (t := fun t => t) (p := fun _ => P) (y := fun t => v t P) (s := T) r y0 hP e (hasDerivAt_id' T) (hasDerivAt_const T P) D.dx
  have gP := g_curve (t := fun _ => T) (p := fun q => q) (y := fun q => v T q) (s := P) r y0 hP e (hasDerivAt_const P T) (hasDerivAt_id' P) D.dy
  have sT := s_curve (y := fun t => v t P) (P := P) r y0 hP D.dx
  refine ⟨fun t => sres m.cf t P (v t P), fun t => (props m.cf t P (v t P)).g + t * sres m.cf t P (v t P), fun t => ⟨rfl, rfl⟩, ?_, ?_, rfl, ?_⟩
  · refine gP.congr_deriv ?_
    have hv' : (props m.cf T P (v T P)).v = 1 / v T P / 10 := rfl
    rw [hv', show (8.31451 : ℝ) = Rgas from rfl]
    ring
  · refine gT.congr_deriv ?_
    unfold sres
    ring
  · refine (gT.fun_add ((hasDerivAt_id' T).fun_mul sT)).congr_deriv ?_
    have hcp : (props m.cf T P (v T P)).cp = -T * (Rgas * ((helmholtz m.cf T (v T P)).fTT * T + 2 * (helmholtz m.cf T (v T P)).fT)) - Rgas
      + Rgas * (1 + v T P / Rgas * (Rgas * ((helmholtz m.cf T (v T P)).fTD * T + (helmholtz m.cf T (v T P)).fD))) ^ 2 /
        (1 + 2 * v T P / (Rgas * T) * (Rgas * T * (helmholtz m.cf T (v T P)).fD)
          + (v T P) ^ 2 / (Rgas * T) * (Rgas * T * (helmholtz m.cf T (v T P)).fDD)) := rfl
    have hd : 1 + 2 * v T P / (Rgas * T) * (Rgas * T * (helmholtz m.cf T (v T P)).fD)
          + (v T P) ^ 2 / (Rgas * T) * (Rgas * T * (helmholtz m.cf T (v T P)).fDD) = slope m.cf T (v T P) / (Rgas * T) := by
      rw [(pressure_eq m.cf T (v T P)).2]
      field_simp
    rw [hcp, hd]
    unfold sres
    generalize slope m.cf T (v T P) = sl at *
    generalize (helmholtz m.cf T (v T P)).f = f
    generalize (helmholtz m.cf T (v T P)).fT = fT
    generalize (helmholtz m.cf T (v T P)).fTT = fTT
    generalize (helmholtz m.cf T (v T P)).fTD = fTD
    generalize (helmholtz m.cf T (v T P)).fD = fD
    generalize v T P = y at *
    generalize Real.log (P / (y * Rgas * T)) = l
    field_simp
    ring

/-- **C120** (density of the code): if around a density y with the pressure P, which lies within the code's limits, the slope of the pressure changes by
less than half, the iteration ends, from every start in this neighbourhood, with a density w that is off by at most 0.5e-10 P/s; the
Gibbs energy there is off by a quantity of the second order only. -/
theorem C120_newton_partial (m : Fluid) (T P y r s S z : ℝ) (h1 : 200 ≤ T) (h2 : T ≤ 2000) (hP : 0 < P) (hy : pressure m.cf T y = P)
    (h7 : m = .H2O → T ≠ 0.65537898e5 / 0.18810675e3)
    (hslope : ∀ x, |x - y| ≤ r → s ≤ slope m.cf T x ∧ slope m.cf T x ≤ S) (hs : 0 < s) (hS : 2 * S ≤ 3 * s)
    (lo : m.rhomin ≤ y - r) (hi : y + r ≤ m.rhomax) (hz : |z - y| ≤ r) (hbig : S * r * (1 / 2) ^ 998 ≤ 1e-10 * P) :
    ∃ w, newton m T P 999 z = .ok w ∧ |w - y| ≤ 1 / 2 * (1e-10 * P / s) ∧ |w - y| ≤ r ∧
      |(props m.cf T P w).g - (props m.cf T P y).g| ≤ S * (1 / 2 * (1e-10 * P / s)) ^ 2 / (y - r) ^ 2 := by
  have m0 := rhomin_pos m
  have hr : 0 ≤ r := (abs_nonneg _).trans hz
  have hS0 : 0 ≤ S := by
    have := hslope y (by simpa using hr)
    linarith
  have st : Steep m.cf T y r s S := by
    refine ⟨fun x hx => ?_, fun x hx => (hslope x hx).1, fun x hx => (hslope x hx).2⟩
    obtain ⟨a, b⟩ := abs_le.mp hx
    exact (poly_pos h1 h2 m (by linarith) (by linarith)).ne'
  obtain ⟨w, w1, w2, w3⟩ := newton_conv st hs hS hP hy lo hi 998 z hz (by
    refine le_trans ?_ hbig
    exact mul_le_mul_of_nonneg_right (mul_le_mul_of_nonneg_left hz hS0) (by positivity))
  have wr : |w - y| ≤ r := w3.trans (by linarith [abs_nonneg (z - y)])
  refine ⟨w, w1, w2, wr, ?_⟩
  have hd : ∀ x ∈ Set.uIcc y w, HasDerivWithinAt (fun x => (props m.cf T P x).g) ((pressure m.cf T x - P) / x ^ 2) (Set.uIcc y w) x ∧
      ‖(pressure m.cf T x - P) / x ^ 2‖ ≤ S * |w - y| / (y - r) ^ 2 := by
    intro x hx
    have hxy : |x - y| ≤ |w - y| := Set.abs_sub_left_of_mem_uIcc hx
    obtain ⟨a, b⟩ := abs_le.mp (hxy.trans wr)
    have x0 : 0 < x := by linarith
    constructor
    · have reg := regular h1 h2 m x0.le (by linarith) h7
      obtain ⟨g, J⟩ := reg.jet
      have F := J.f.dy
      dsimp only at F
      have hR := Gas.Rpos
      have hT : 0 < T := by linarith
      have X := hasDerivAt_id' x
      have A := (((((X.log x0.ne').fun_add F).add_const (Real.log (Rgas * T))).sub_const 1).sub_const (Real.log P)).const_mul (Rgas * T)
      have B := ((hasDerivAt_const x P).fun_div ((X.mul_const Rgas).mul_const T) (by positivity)).const_mul (Rgas * T)
      have C := A.fun_add B
      refine ((C.congr_of_eventuallyEq (Eventually.of_forall fun q => ?_)).congr_deriv ?_).hasDerivWithinAt
      · dsimp only
        rw [props_g _ _ _ hP]
      · rw [(pressure_eq m.cf T x).1]
        generalize (helmholtz m.cf T x).fD = fD
        field_simp
        ring
    · obtain ⟨d, d1, d2, e⟩ := st.mvt (hxy.trans wr)
      rw [← hy, e, Real.norm_eq_abs, abs_div, abs_mul, abs_of_pos (hs.trans_le d1), abs_of_nonneg (sq_nonneg x)]
      refine div_le_div₀ (by positivity) (mul_le_mul d2 hxy (abs_nonneg _) hS0) (by nlinarith) ?_
      exact pow_le_pow_left₀ (by linarith) (by linarith) 2
  have key := Convex.norm_image_sub_le_of_norm_hasDerivWithin_le (fun x hx => (hd x hx).1) (fun x hx => (hd x hx).2) (convex_uIcc y w)
    Set.left_mem_uIcc Set.right_mem_uIcc
  rw [Real.norm_eq_abs, Real.norm_eq_abs] at key
  refine key.trans ?_
  rw [div_mul_eq_mul_div]
  refine div_le_div_of_nonneg_right ?_ (sq_nonneg _)
  have := mul_le_mul w2 w2 (abs_nonneg _) (by positivity)
  nlinarith [mul_le_mul_of_nonneg_left this hS0]

/-- **C120** (what is returned): a result consists of the properties at a density within the limits, one Newton step away from a density whose pressure
agrees with the given one to ten digits.  In the range of the code NaN comes out only for H2O at the temperature of `C119_water_refuted`, where the
slope of the pressure is exactly 0, or for a CO2 record with a critical temperature or pressure of 0. -/
theorem C120_result_partial (m : Fluid) (T Pbar : ℝ) (k : Nat → ℝ) (o : Option Fug) (h : fugacityPT m T Pbar k = .ok o) :
    200 ≤ T ∧ T ≤ 2000 ∧
    (∀ f, o = some f → ∃ x y, f = props m.cf T (Pbar / 10) y ∧ m.rhomin ≤ y ∧ y ≤ m.rhomax ∧ |1 - pressure m.cf T x / (Pbar / 10)| ≤ 1e-10 ∧
      (slope m.cf T x ≠ 0 → y = min m.rhomax (max m.rhomin (x - (pressure m.cf T x - Pbar / 10) / slope m.cf T x)))) ∧
    (o = none → (m = .H2O ∧ T = 0.65537898e5 / 0.18810675e3) ∨ (∃ x, slope m.cf T x = 0 ∧ pressure m.cf T x = Pbar / 10) ∨
      (m = .CO2 ∧ (k 0 = 0 ∨ k 1 = 0))) := by
  unfold fugacityPT at h
  split_ifs at h with hr
  push Not at hr
  obtain ⟨h1, h2, -, -⟩ := hr
  refine ⟨h1, h2, ?_⟩
  have hnan : ∀ n z, m.rhomin ≤ z → z ≤ m.rhomax → newton m T (Pbar / 10) n z = .nan → ∃ x, slope m.cf T x = 0 ∧ pressure m.cf T x = Pbar / 10 := by
    intro n
    induction n with
    | zero => intro z _ _ h; simp [newton] at h
    | succ n ih =>
      intro z z0 z1 h
      rw [newton, if_neg (poly_pos h1 h2 m ((rhomin_pos m).le.trans z0) z1).ne'] at h
      dsimp only at h
      by_cases c : slope m.cf T z = 0 ∧ pressure m.cf T z = Pbar / 10
      · exact ⟨z, c⟩
      · rw [if_neg c] at h
        split_ifs at h
        · exact ih _ (le_refl _) (rhomin_le m) h
        · exact ih _ (rhomin_le m) (le_refl _) h
        · exact ih _ (clamp_mem _ _).1 (clamp_mem _ _).2 h
  unfold fugacity at h
  split at h
  · rename_i hg
    cases h
    refine ⟨by simp, fun _ => .inr (.inr ?_)⟩
    unfold densityGuess at hg
    cases m <;> dsimp only at hg <;> split_ifs at hg with a b
    refine ⟨rfl, ?_⟩
    rcases b with b | b
    · exact .inl b
    · exact .inr (by linarith)
  · rename_i z hg
    obtain ⟨z0, z1⟩ := guess_mem hg
    split at h
    · cases h
    · rename_i hn
      cases h
      exact ⟨by simp, fun _ => .inr (.inl (hnan _ _ z0 z1 hn))⟩
    · rename_i w hn
      obtain ⟨w0, w1⟩ := newton_mem hn
      split_ifs at h with hc
      · cases h
        refine ⟨by simp, fun _ => .inl ?_⟩
        by_contra hne
        push Not at hne
        have r := regular h1 h2 m ((rhomin_pos m).le.trans w0) w1 hne
        rcases hc with c | c | c | c
        · exact r.p c
        · exact r.c1 c
        · exact r.c7 c
        · exact r.c9 c
      · cases h
        refine ⟨fun f hf => ?_, by simp⟩
        cases hf
        obtain ⟨x, -, x2, x3⟩ := newton_last _ _ _ hn
        refine ⟨x, w, rfl, w0, w1, x2, fun hx => ?_⟩
        rw [x3, if_neg hx, show x + -(pressure m.cf T x - Pbar / 10) / slope m.cf T x = x - (pressure m.cf T x - Pbar / 10) / slope m.cf T x by ring]
        generalize x - (pressure m.cf T x - Pbar / 10) / slope m.cf T x = q
        have := rhomin_le m
        unfold Fluid.clamp
        dsimp only
        rcases le_or_gt m.rhomin q with a | a
        · rw [if_neg (not_lt.mpr a), max_eq_right a]
          rcases le_or_gt q m.rhomax with b | b
          · rw [if_neg (not_lt.mpr b), min_eq_right b]
          · rw [if_pos b, min_eq_left b.le]
        · rw [if_pos a, max_eq_left a.le, if_neg (not_lt.mpr this), min_eq_right this]

/-- CO2 at 1600 K and 1 bar: the code returns a result. -/
lemma ex_result {k : Nat → ℝ} (h1 : k 0 < 1600) (h2 : 0 < k 0) (h3 : 0 < k 1) :
    ∃ w, fugacityPT .CO2 1600 1 k = .ok (some (props (Fluid.cf .CO2) 1600 (1 / 10) w)) ∧ 1e-6 ≤ w ∧ w ≤ 2e-5 := by
  obtain ⟨y, y1, y2, y3, st⟩ := ex_density
  obtain ⟨z, z1, z2, z3⟩ := ex_guess (Tc := k 0) (Pc := k 1 / 10) h1 h2 (by linarith)
  have hRv : Rgas = 8.31451 := rfl
  have b : |z - y| ≤ 4e-6 := abs_le.mpr ⟨by norm_num at *; linarith, by norm_num at *; linarith⟩
  obtain ⟨w, w1, -, w3, -⟩ := C120_newton_partial .CO2 1600 0.1 y 4e-6 (0.9 * (Rgas * 1600)) (1.1 * (Rgas * 1600)) z (by norm_num) (by norm_num)
    (by norm_num) y3 (by simp) (fun x hx => ⟨st.lo x hx, st.hi x hx⟩) (by rw [hRv]; norm_num) (by rw [hRv]; norm_num)
    (le_trans (b := 1e-6) (by unfold Fluid.rhomin Fluid.Mw; norm_num) (by norm_num at *; linarith))
    (le_trans (b := 2e-5) (by norm_num at *; linarith) (by unfold Fluid.rhomax; norm_num)) b
    (le_trans (mul_le_mul_of_nonneg_left (pow_le_pow_of_le_one (by norm_num) (by norm_num) (show 60 ≤ 998 by norm_num)) (by rw [hRv]; norm_num))
      (by rw [hRv]; norm_num))
  obtain ⟨a1, a2⟩ := abs_le.mp w3
  have l1 : (1e-6 : ℝ) ≤ w := by norm_num at *; linarith
  have l2 : w ≤ (2e-5 : ℝ) := by norm_num at *; linarith
  refine ⟨w, ?_, l1, l2⟩
  have r := regular (T := 1600) (by norm_num) (by norm_num) .CO2 (y := w) (by linarith)
    (l2.trans (by unfold Fluid.rhomax; norm_num)) (by simp)
  unfold fugacityPT
  rw [if_neg (by norm_num)]
  unfold fugacity
  rw [show (1 / 10 : ℝ) = 0.1 by norm_num, z1]
  dsimp only
  rw [w1]
  dsimp only
  rw [if_neg]
  rintro (c | c | c | c)
  · exact r.p c
  · exact r.c1 c
  · exact r.c7 c
  · exact r.c9 c

example : ∃ w, fugacityPT .CO2 1600 1 (fun i => [304.2, 73.8].getD i 0) = .ok (some (props (Fluid.cf .CO2) 1600 (1 / 10) w)) ∧ 1e-6 ≤ w ∧ w ≤ 2e-5 :=
  ex_result (by norm_num) (by norm_num) (by norm_num)

/-- The hypotheses of `C120_residual_partial` at this state. -/
example : ∃ v : ℝ → ℝ → ℝ, IsDensity (pressure (Fluid.cf .CO2)) v 1600 0.1 ∧ 0 < v 1600 0.1 ∧ v 1600 0.1 ≤ Fluid.rhomax .CO2 ∧
    slope (Fluid.cf .CO2) 1600 (v 1600 0.1) ≠ 0 := by
  obtain ⟨y, y1, y2, y3, -⟩ := ex_density
  have hs : slope (Fluid.cf .CO2) 1600 y ≠ 0 := by
    have := (ex_slope (y := y) (by linarith) (y2.trans (by norm_num))).1
    have hRv : Rgas = 8.31451 := rfl
    rw [hRv] at this
    norm_num at this ⊢
    intro h
    rw [h] at this
    linarith
  have y4 : y ≤ Fluid.rhomax .CO2 := y2.trans (by unfold Fluid.rhomax; norm_num)
  obtain ⟨v, h1, h2⟩ := C120_density_exists_partial .CO2 1600 y (by norm_num) (by norm_num) (by linarith) y4 (by simp) hs
  rw [y3] at h1 h2
  exact ⟨v, h1, by rw [h2]; linarith, by rw [h2]; exact y4, by rw [h2]; exact hs⟩

end ThermoFun.Stp

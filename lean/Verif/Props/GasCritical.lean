import Verif.Props.GasIdeal

/-!
# The critical point of the gas equations

Theorems about the parameters of the cubic equations of state (Model/Gas.lean): above the critical temperature of its record a gas has one volume
at every pressure, below it a vapour and a liquid (C171).
-/

namespace ThermoFun.Gas

open Set
open scoped Topology

/-- The pressure of a cubic equation of state; `s` is R T. -/
noncomputable def pres (m n s a b v : ℝ) : ℝ := s / (v - b) - a / (v ^ 2 + m * b * v + n * b ^ 2)

lemma pres_pr (a b T v : ℝ) : prPressure a b T v = pres 2 (-1) (Rgas * T) a b v := by
  unfold prPressure pres
  congr 2
  ring

lemma pres_srk (a b T v : ℝ) : srkPressure a b T v = pres 1 0 (Rgas * T) a b v := by
  unfold srkPressure pres
  congr 2
  ring

/-- The denominator of the attraction is positive above b. -/
lemma den_pos {m n b v : ℝ} (hb : 0 < b) (hv : b < v) (hm : 0 ≤ m) (hmn : 0 ≤ 1 + m + n) : 0 < v ^ 2 + m * b * v + n * b ^ 2 := by
  have h1 : 0 ≤ m * (b * (v - b)) := mul_nonneg hm (mul_nonneg hb.le (by linarith))
  have h2 : 0 ≤ (1 + m + n) * b ^ 2 := by positivity
  nlinarith

lemma pres_deriv {m n s a b v : ℝ} (hv : b < v) (hd : 0 < v ^ 2 + m * b * v + n * b ^ 2) :
    HasDerivAt (pres m n s a b) (-s / (v - b) ^ 2 + a * (2 * v + m * b) / (v ^ 2 + m * b * v + n * b ^ 2) ^ 2) v := by
  unfold pres
  have d0 : HasDerivAt (fun x : ℝ => x - b) 1 v := (hasDerivAt_id' v).sub_const b
  have d1 : HasDerivAt (fun x : ℝ => x ^ 2 + m * b * x + n * b ^ 2) (2 * v + m * b) v := by
    have := ((hasDerivAt_pow 2 v).fun_add ((hasDerivAt_id' v).const_mul (m * b))).add_const (n * b ^ 2)
    exact this.congr_deriv (by norm_num)
  have := ((hasDerivAt_const v s).fun_div d0 (by linarith : v - b ≠ 0)).fun_sub ((hasDerivAt_const v a).fun_div d1 hd.ne')
  refine this.congr_deriv ?_
  ring

/-- The equation of state as a cubic in the volume. -/
lemma pres_cubic {m n s a b v P : ℝ} (hv : b < v) (hd : 0 < v ^ 2 + m * b * v + n * b ^ 2) :
    P = pres m n s a b v ↔ (P * (v - b) - s) * (v ^ 2 + m * b * v + n * b ^ 2) + a * (v - b) = 0 := by
  unfold pres
  have h0 : v - b ≠ 0 := by linarith
  rw [← sub_eq_zero, div_sub_div _ _ h0 hd.ne', sub_div' (mul_ne_zero h0 hd.ne'), div_eq_zero_iff]
  constructor
  · rintro (h | h)
    · linarith
    · exact absurd h (mul_ne_zero h0 hd.ne')
  · intro h
    left
    linarith

/-- Every pressure is met by some volume. -/
lemma pres_exists {m n s a b P : ℝ} (hs : 0 < s) (ha : 0 ≤ a) (hb : 0 < b) (hm : 0 ≤ m) (hmn : 0 < 1 + m + n) (hP : 0 < P) :
    ∃ v, b < v ∧ P = pres m n s a b v := by
  have hc : ContinuousOn (fun v : ℝ => (P * (v - b) - s) * (v ^ 2 + m * b * v + n * b ^ 2) + a * (v - b)) (Icc b (b + 2 * s / P)) := by fun_prop
  have hle : b ≤ b + 2 * s / P := le_add_of_nonneg_right (by positivity)
  have h0 : (P * (b - b) - s) * (b ^ 2 + m * b * b + n * b ^ 2) + a * (b - b) < 0 := by
    have : 0 < s * ((1 + m + n) * b ^ 2) := by positivity
    linarith
  have h1 : 0 < (P * (b + 2 * s / P - b) - s) * ((b + 2 * s / P) ^ 2 + m * b * (b + 2 * s / P) + n * b ^ 2) + a * (b + 2 * s / P - b) := by
    rw [show P * (b + 2 * s / P - b) - s = s by field_simp; ring]
    have hle' : b < b + 2 * s / P := lt_add_of_pos_right b (by positivity)
    have := mul_pos hs (den_pos (m := m) (n := n) hb hle' hm hmn.le)
    have h3 : 0 ≤ a * (2 * s / P) := by positivity
    linarith
  obtain ⟨v, hv, h⟩ := intermediate_value_Ioo hle hc ⟨h0, h1⟩
  exact ⟨v, hv.1, (pres_cubic hv.1 (den_pos hb hv.1 hm hmn.le)).2 h⟩

/-- Where the attraction is weak the pressure falls with the volume, so the volume is unique. -/
lemma pres_anti {m n s a b κ : ℝ} (hs : 0 < s) (hb : 0 < b) (hm : 0 ≤ m) (hmn : 0 < 1 + m + n) (ha : a ≤ κ * (b * s))
    (hκ : ∀ x : ℝ, 1 < x → κ * ((2 * x + m) * (x - 1) ^ 2) < (x ^ 2 + m * x + n) ^ 2) : StrictAntiOn (pres m n s a b) (Ioi b) := by
  refine strictAntiOn_of_deriv_neg (convex_Ioi b) (fun v hv => ?_) (fun v hv => ?_)
  · exact (pres_deriv hv (den_pos hb hv hm hmn.le)).continuousAt.continuousWithinAt
  · rw [interior_Ioi] at hv
    have hd := den_pos hb hv hm hmn.le
    rw [(pres_deriv hv hd).deriv]
    have hv' : b < v := hv
    have hvb : 0 < v - b := by linarith
    rw [neg_div, neg_add_lt_iff_lt_add, add_zero, div_lt_div_iff₀ (by positivity) (by positivity)]
    obtain ⟨x, rfl⟩ : ∃ x, v = x * b := ⟨v / b, by field_simp⟩
    have hx : 1 < x := by by_contra h; nlinarith
    have hp : 0 ≤ (2 * x + m) * (x - 1) ^ 2 := mul_nonneg (by linarith) (sq_nonneg _)
    have e1 : a * (2 * (x * b) + m * b) * (x * b - b) ^ 2 = b ^ 3 * (a * ((2 * x + m) * (x - 1) ^ 2)) := by ring
    have e2 : s * ((x * b) ^ 2 + m * b * (x * b) + n * b ^ 2) ^ 2 = b ^ 3 * (b * s * (x ^ 2 + m * x + n) ^ 2) := by ring
    rw [e1, e2]
    refine mul_lt_mul_of_pos_left ?_ (by positivity)
    calc a * ((2 * x + m) * (x - 1) ^ 2) ≤ κ * (b * s) * ((2 * x + m) * (x - 1) ^ 2) := mul_le_mul_of_nonneg_right ha hp
      _ = b * s * (κ * ((2 * x + m) * (x - 1) ^ 2)) := by ring
      _ < b * s * (x ^ 2 + m * x + n) ^ 2 := mul_lt_mul_of_pos_left (hκ x hx) (by positivity)

/-- Where the attraction is strong some pressure is met by three volumes. -/
lemma pres_three {m n s a b x : ℝ} (hs : 0 < s) (ha : 0 < a) (hb : 0 < b) (hm : 0 ≤ m) (hmn : 0 < 1 + m + n) (hx : 1 < x)
    (hpos : a * (x - 1) < b * s * (x ^ 2 + m * x + n)) (hup : b * s * (x ^ 2 + m * x + n) ^ 2 < a * ((2 * x + m) * (x - 1) ^ 2)) :
    ∃ P > 0, ∃ v1 v2 v3, b < v1 ∧ v1 < v2 ∧ v2 < v3 ∧ P = pres m n s a b v1 ∧ P = pres m n s a b v2 ∧ P = pres m n s a b v3 := by
  set v0 := x * b with hv0
  have hv : b < v0 := by nlinarith
  have hd := den_pos hb hv hm hmn.le
  have hd' : 0 < x ^ 2 + m * x + n := by
    have : v0 ^ 2 + m * b * v0 + n * b ^ 2 = b ^ 2 * (x ^ 2 + m * x + n) := by rw [hv0]; ring
    rw [this] at hd
    exact (mul_pos_iff_of_pos_left (by positivity)).1 hd
  have hx1 : 0 < x - 1 := by linarith
  have hP : pres m n s a b v0 = (b * s * (x ^ 2 + m * x + n) - a * (x - 1)) / (b ^ 2 * (x - 1) * (x ^ 2 + m * x + n)) := by
    unfold pres
    rw [show v0 - b = b * (x - 1) by rw [hv0]; ring, show v0 ^ 2 + m * b * v0 + n * b ^ 2 = b ^ 2 * (x ^ 2 + m * x + n) by rw [hv0]; ring]
    rw [div_sub_div _ _ (by positivity) (by positivity), div_eq_div_iff (by positivity) (by positivity)]
    ring
  have hPpos : 0 < pres m n s a b v0 := by
    rw [hP]
    exact div_pos (by linarith) (by positivity)
  set P := pres m n s a b v0 with hPdef
  have hroot := (pres_cubic (P := P) (s := s) (a := a) hv hd).1 hPdef
  -- the cubic divided by its root v0
  let Q : ℝ → ℝ := fun v => P * (v ^ 2 + v * v0 + v0 ^ 2) + (m * b * P - (P * b + s)) * (v + v0) + (n * b ^ 2 * P - m * b * (P * b + s) + a)
  have hQ : ∀ v, (P * (v - b) - s) * (v ^ 2 + m * b * v + n * b ^ 2) + a * (v - b) = (v - v0) * Q v := by
    intro v
    simp only [Q]
    linear_combination hroot
  have hQc : Continuous Q := by simp only [Q]; fun_prop
  have hQb : 0 < Q b := by
    have h := hQ b
    have : 0 < s * ((1 + m + n) * b ^ 2) := by positivity
    have h2 : (b - v0) * Q b < 0 := by rw [← h]; linarith
    by_contra hn
    have := mul_nonneg_of_nonpos_of_nonpos (by linarith : b - v0 ≤ 0) (not_lt.1 hn)
    linarith
  have hsP : v0 < b + s / P := by
    have h1 : P * (v0 - b) < s := by
      have : P < s / (v0 - b) := by
        rw [hPdef]
        unfold pres
        have : 0 < a / (v0 ^ 2 + m * b * v0 + n * b ^ 2) := by positivity
        linarith
      rwa [lt_div_iff₀ (by linarith)] at this
    have : v0 - b < s / P := by rw [lt_div_iff₀ hPpos]; linarith
    linarith
  have hQV : 0 < Q (b + s / P) := by
    have h := hQ (b + s / P)
    rw [show P * (b + s / P - b) - s = 0 by field_simp; ring] at h
    have h1 : 0 < a * (s / P) := by positivity
    have h2 : 0 < (b + s / P - v0) * Q (b + s / P) := by rw [← h]; linarith
    exact (mul_pos_iff_of_pos_left (by linarith)).1 h2
  have hQ0 : Q v0 < 0 := by
    have e : Q v0 * (b ^ 2 * (x - 1) * (x ^ 2 + m * x + n)) =
        b ^ 2 * (b * s * (x ^ 2 + m * x + n) ^ 2 - a * ((2 * x + m) * (x - 1) ^ 2)) := by
      have hPe : P * (b ^ 2 * (x - 1) * (x ^ 2 + m * x + n)) = b * s * (x ^ 2 + m * x + n) - a * (x - 1) := by
        rw [hP, div_mul_cancel₀ _ (by positivity)]
      have hq : Q v0 = P * (3 * v0 ^ 2 + (m * b - b) * (2 * v0) + n * b ^ 2 - m * b * b) - s * (2 * v0 + m * b) + a := by
        simp only [Q]; ring
      rw [hq, hv0]
      linear_combination (3 * (x * b) ^ 2 + (m * b - b) * (2 * (x * b)) + n * b ^ 2 - m * b * b) * hPe
    have hpos' : 0 < b ^ 2 * (x - 1) * (x ^ 2 + m * x + n) := by positivity
    by_contra hn
    have h1 := mul_nonneg (not_lt.1 hn) hpos'.le
    rw [e] at h1
    have h2 : b ^ 2 * (b * s * (x ^ 2 + m * x + n) ^ 2 - a * ((2 * x + m) * (x - 1) ^ 2)) < 0 :=
      mul_neg_of_pos_of_neg (by positivity) (by linarith)
    linarith
  obtain ⟨v1, hv1, e1⟩ := intermediate_value_Ioo' hv.le hQc.continuousOn ⟨hQ0, hQb⟩
  obtain ⟨v3, hv3, e3⟩ := intermediate_value_Ioo hsP.le hQc.continuousOn ⟨hQ0, hQV⟩
  refine ⟨P, hPpos, v1, v0, v3, hv1.1, hv1.2, hv3.1, ?_, hPdef, ?_⟩
  · refine (pres_cubic hv1.1 (den_pos hb hv1.1 hm hmn.le)).2 ?_
    rw [hQ, e1, mul_zero]
  · have := hv.trans hv3.1
    refine (pres_cubic this (den_pos hb this hm hmn.le)).2 ?_
    rw [hQ, e3, mul_zero]

/-- The attraction that keeps the pressure falling, Peng-Robinson. -/
lemma pr_weak {x : ℝ} (hx : 1 < x) : 5.8773 * ((2 * x + 2) * (x - 1) ^ 2) < (x ^ 2 + 2 * x + -1) ^ 2 := by
  have h1 : 0 ≤ (x - 3.9512) ^ 2 * (x - 1) ^ 2 := by positivity
  have h2 : 0 ≤ (x - 3.9512) ^ 2 * (x - 1) := mul_nonneg (sq_nonneg _) (by linarith)
  have h3 := sq_nonneg (x - 3.9512)
  nlinarith [h1, h2, h3]

/-- The same for SRK. -/
lemma srk_weak {x : ℝ} (hx : 1 < x) : 4.9339 * ((2 * x + 1) * (x - 1) ^ 2) < (x ^ 2 + 1 * x + 0) ^ 2 := by
  have h1 : 0 ≤ (x - 3.8472) ^ 2 * (x - 1) ^ 2 := by positivity
  have h2 : 0 ≤ (x - 3.8472) ^ 2 * (x - 1) := mul_nonneg (sq_nonneg _) (by linarith)
  have h3 := sq_nonneg (x - 3.8472)
  nlinarith [h1, h2, h3]

/-- A strong attraction, Peng-Robinson: some volume x b at which the pressure is positive and rises with the volume. -/
lemma pr_strong {κ : ℝ} (hκ : 5.93 ≤ κ) : ∃ x, 1 < x ∧ κ * (x - 1) < x ^ 2 + 2 * x + -1 ∧ (x ^ 2 + 2 * x + -1) ^ 2 < κ * ((2 * x + 2) * (x - 1) ^ 2) := by
  obtain ⟨t, ht, rfl⟩ : ∃ t, 0 ≤ t ∧ κ = 5.93 + t := ⟨κ - 5.93, by linarith, by ring⟩
  refine ⟨5.93 + t - 1.95, by linarith, by nlinarith, ?_⟩
  have h2 : 0 ≤ t ^ 2 := by positivity
  have h3 : 0 ≤ t ^ 3 := by positivity
  have h4 : 0 ≤ t ^ 4 := by positivity
  nlinarith [h2, h3, h4]

/-- The same for SRK. -/
lemma srk_strong {κ : ℝ} (hκ : 4.98 ≤ κ) : ∃ x, 1 < x ∧ κ * (x - 1) < x ^ 2 + 1 * x + 0 ∧ (x ^ 2 + 1 * x + 0) ^ 2 < κ * ((2 * x + 1) * (x - 1) ^ 2) := by
  obtain ⟨t, ht, rfl⟩ : ∃ t, 0 ≤ t ∧ κ = 4.98 + t := ⟨κ - 4.98, by linarith, by ring⟩
  refine ⟨4.98 + t - 1.07, by linarith, by nlinarith, ?_⟩
  have h2 : 0 ≤ t ^ 2 := by positivity
  have h3 : 0 ≤ t ^ 3 := by positivity
  have h4 : 0 ≤ t ^ 4 := by positivity
  nlinarith [h2, h3, h4]

/-- The pressure of the equation of state of a gas model at temperature `T` and molar volume `v`. -/
noncomputable def eosOf (m : Eos) (T : ℝ) (k : Nat → ℝ) (v : ℝ) : ℝ :=
  match m with
  | .SRK => srkPressure (parsOf m T k).a (parsOf m T k).b T v
  | _ => prPressure (parsOf m T k).a (parsOf m T k).b T v

/-- A record with a positive critical temperature and pressure and an acentric factor from that of hydrogen to that of water. -/
structure GasRec (k : Nat → ℝ) : Prop where
  Tc : 0 < k 0
  Pc : 0 < k 1
  lo : -0.22 ≤ k 2
  hi : k 2 ≤ 0.34

/-- The factor of the temperature function (k, or m for SRK) for a record without the further coefficients of PRSV. -/
noncomputable def alphaOf (m : Eos) (w : ℝ) : ℝ :=
  match m with
  | .PRSV => 0.378893 + 1.4897153 * w - 0.17131848 * w ^ 2 + 0.0196554 * w ^ 3
  | .SRK => 0.48 + 1.574 * w - 0.176 * w ^ 2
  | .PR78 => 0.37464 + 1.54226 * w - 0.26992 * w ^ 2

/-- The constants of the attraction and of the volume at the critical point. -/
noncomputable def cA : Eos → ℝ
  | .PRSV => 0.457235
  | .SRK => 0.42747
  | .PR78 => 0.457235529

/-- See `cA`. -/
noncomputable def cB : Eos → ℝ
  | .PRSV => 0.077796
  | .SRK => 0.08664
  | .PR78 => 0.0777960739

lemma alphaOf_range {m : Eos} {w : ℝ} (h0 : -0.22 ≤ w) (h1 : w ≤ 0.34) : 0 ≤ alphaOf m w ∧ alphaOf m w ≤ 0.9999 := by
  have h2 : 0 ≤ (w + 0.22) * (0.34 - w) := mul_nonneg (by linarith) (by linarith)
  have h3 : 0 ≤ (w + 0.22) * w ^ 2 := mul_nonneg (by linarith) (sq_nonneg _)
  have h4 : 0 ≤ (0.34 - w) * w ^ 2 := mul_nonneg (by linarith) (sq_nonneg _)
  have h5 := sq_nonneg w
  cases m <;> simp only [alphaOf] <;> constructor <;> nlinarith [h2, h3, h4, h5]

/-- The parameters of the three equations in one form. -/
lemma parsOf_form {m : Eos} {T : ℝ} {k : Nat → ℝ} (h : GasRec k) (hk : k 0 ≤ T ∨ (m = .PRSV → k 3 = 0 ∧ k 4 = 0)) :
    (parsOf m T k).a = (1 + alphaOf m (k 2) * (1 - Real.sqrt (T / k 0))) ^ 2 * (cA m * Rgas ^ 2 * k 0 ^ 2 / k 1) ∧
    (parsOf m T k).b = cB m * Rgas * k 0 / k 1 := by
  cases m
  · unfold parsOf prsvAB
    dsimp only [alphaOf, cA, cB]
    refine ⟨?_, rfl⟩
    by_cases hT : T ≥ k 0
    · simp only [if_pos hT]
      ring
    · obtain ⟨e3, e4⟩ := (hk.resolve_left hT) rfl
      simp only [if_neg hT, e3, e4]
      ring
  · exact ⟨rfl, rfl⟩
  · unfold parsOf pr78AB
    dsimp only [alphaOf, cA, cB]
    refine ⟨?_, rfl⟩
    rw [pr78k, if_pos (by have := h.hi; linarith)]

/-- The attraction above the critical temperature. -/
lemma weak_of_above {α c cb κ Tc Pc T : ℝ} (hTc : 0 < Tc) (hPc : 0 < Pc) (hT : 1.0001 * Tc ≤ T) (h0 : 0 ≤ α) (h1 : α ≤ 0.9999) (hc : 0 ≤ c)
    (hκ : c * 0.99993 ≤ κ * cb) :
    (1 + α * (1 - Real.sqrt (T / Tc))) ^ 2 * (c * Rgas ^ 2 * Tc ^ 2 / Pc) ≤ κ * (cb * Rgas * Tc / Pc * (Rgas * T)) := by
  have hT0 : 0 < T := by linarith
  set s := Real.sqrt (T / Tc) with hs
  have hss : s ^ 2 = T / Tc := Real.sq_sqrt (by positivity)
  have hs1 : 1.000049 ≤ s := by
    refine Real.le_sqrt_of_sq_le ?_
    rw [le_div_iff₀ hTc]
    linarith
  have hq : (1 + α * (1 - s)) ^ 2 ≤ (0.99996 * s) ^ 2 := by
    refine sq_le_sq' ?_ ?_
    · have := mul_le_mul_of_nonneg_right h1 (by linarith : 0 ≤ s - 1)
      linarith
    · have := mul_nonneg h0 (by linarith : 0 ≤ s - 1)
      linarith
  have hTs : T = s ^ 2 * Tc := by rw [hss]; field_simp
  have hs2 : 0 ≤ s ^ 2 := sq_nonneg s
  have hR := Rpos
  have hcc : (1 + α * (1 - s)) ^ 2 * c ≤ κ * cb * s ^ 2 := by
    calc (1 + α * (1 - s)) ^ 2 * c ≤ (0.99996 * s) ^ 2 * c := mul_le_mul_of_nonneg_right hq hc
      _ ≤ c * 0.99993 * s ^ 2 := by nlinarith [mul_nonneg hc hs2]
      _ ≤ κ * cb * s ^ 2 := mul_le_mul_of_nonneg_right hκ hs2
  calc _ = (1 + α * (1 - s)) ^ 2 * c * (Rgas ^ 2 * Tc ^ 2 / Pc) := by ring
    _ ≤ κ * cb * s ^ 2 * (Rgas ^ 2 * Tc ^ 2 / Pc) := mul_le_mul_of_nonneg_right hcc (by positivity)
    _ = κ * (cb * Rgas * Tc / Pc * (Rgas * (s ^ 2 * Tc))) := by ring
    _ = _ := by rw [← hTs]

/-- The attraction below the critical temperature. -/
lemma strong_of_below {α c cb κ Tc Pc T : ℝ} (hPc : 0 < Pc) (hT0 : 0 < T) (hT : T ≤ 0.99 * Tc) (h0 : 0 ≤ α) (hc : 0 ≤ c)
    (hκ : κ * cb * 0.99 ≤ c) :
    κ * (cb * Rgas * Tc / Pc * (Rgas * T)) ≤ (1 + α * (1 - Real.sqrt (T / Tc))) ^ 2 * (c * Rgas ^ 2 * Tc ^ 2 / Pc) := by
  have hTc : 0 < Tc := by linarith
  have hs1 : Real.sqrt (T / Tc) ≤ 1 := Real.sqrt_le_one.2 (by rw [div_le_one hTc]; linarith)
  have hq : 1 ≤ (1 + α * (1 - Real.sqrt (T / Tc))) ^ 2 := by
    have := mul_nonneg h0 (by linarith : 0 ≤ 1 - Real.sqrt (T / Tc))
    nlinarith
  have hR := Rpos
  calc κ * (cb * Rgas * Tc / Pc * (Rgas * T)) = κ * cb * T * (Rgas ^ 2 * Tc / Pc) := by ring
    _ ≤ c * Tc * (Rgas ^ 2 * Tc / Pc) := mul_le_mul_of_nonneg_right (by nlinarith) (by positivity)
    _ = 1 * (c * Rgas ^ 2 * Tc ^ 2 / Pc) := by ring
    _ ≤ _ := mul_le_mul_of_nonneg_right hq (by positivity)

/-- The numbers of the equation: coefficients of the denominator. -/
noncomputable def mOf : Eos → ℝ
  | .SRK => 1
  | _ => 2

/-- See `mOf`. -/
noncomputable def nOf : Eos → ℝ
  | .SRK => 0
  | _ => -1

/-- The attraction a/(b R T) that divides one volume from three, from below. -/
noncomputable def kOf : Eos → ℝ
  | .SRK => 4.9339
  | _ => 5.8773

lemma eosOf_pres (m : Eos) (T : ℝ) (k : Nat → ℝ) : eosOf m T k = pres (mOf m) (nOf m) (Rgas * T) (parsOf m T k).a (parsOf m T k).b := by
  funext v
  cases m
  · exact pres_pr _ _ _ _
  · exact pres_srk _ _ _ _
  · exact pres_pr _ _ _ _

lemma mn_pos (m : Eos) : 0 ≤ mOf m ∧ 0 < 1 + mOf m + nOf m := by
  cases m <;> norm_num [mOf, nOf]

lemma a_le_above {m : Eos} {T : ℝ} {k : Nat → ℝ} (h : GasRec k) (hT : 1.0001 * k 0 ≤ T) :
    (parsOf m T k).a ≤ kOf m * ((parsOf m T k).b * (Rgas * T)) := by
  have hTc := h.Tc
  obtain ⟨e1, e2⟩ := parsOf_form (m := m) h (.inl (by linarith : k 0 ≤ T))
  obtain ⟨h0, h1⟩ := alphaOf_range (m := m) h.lo h.hi
  rw [e1, e2]
  refine weak_of_above h.Tc h.Pc hT h0 h1 ?_ ?_
  · cases m <;> norm_num [cA]
  · cases m <;> norm_num [cA, cB, kOf]

/-- The pressure of a gas falls with the volume above the critical temperature. -/
lemma eosOf_anti {m : Eos} {T : ℝ} {k : Nat → ℝ} (h : GasRec k) (hT : 1.0001 * k 0 ≤ T) :
    StrictAntiOn (eosOf m T k) (Ioi (parsOf m T k).b) := by
  have hTc := h.Tc
  have hR := Rpos
  have hb := (parsOf_pos (m := m) (T := T) h.Tc h.Pc).2
  rw [eosOf_pres]
  refine pres_anti (κ := kOf m) (mul_pos hR (by linarith)) hb (mn_pos m).1 (mn_pos m).2 (a_le_above h hT) ?_
  intro x hx
  cases m
  · exact pr_weak hx
  · exact srk_weak hx
  · exact pr_weak hx

/-- **C171** (above): above its critical temperature a gas has one volume at every pressure, however high the pressure is; there is no
condensation.  `C171_below_partial` is the other direction.  Missing: temperatures between 0.99 Tc and 1.0001 Tc (the literals of the code give the critical point
to six digits only) and acentric factors outside −0.22 to 0.34, as those of heavy organic molecules. -/
theorem C171_above_partial (m : Eos) (T P : ℝ) (k : Nat → ℝ) (h : GasRec k) (hT : 1.0001 * k 0 ≤ T) (hP : 0 < P) :
    ∃! v, (parsOf m T k).b < v ∧ P = eosOf m T k v := by
  have hTc := h.Tc
  obtain ⟨ha, hb⟩ := parsOf_pos (m := m) (T := T) h.Tc h.Pc
  obtain ⟨v, hv, e⟩ := pres_exists (m := mOf m) (n := nOf m) (mul_pos Rpos (by linarith : 0 < T)) ha hb (mn_pos m).1 (mn_pos m).2 hP
  rw [← eosOf_pres] at e
  refine ⟨v, ⟨hv, e⟩, ?_⟩
  rintro y ⟨hy, e'⟩
  exact (eosOf_anti h hT).injOn hy hv (e'.symm.trans e)

/-- **C171** (below): below its critical temperature a gas has some pressure at which the equation has three volumes: a liquid, a vapour and
one between them.  For PRSV the record has no k1 and k2. -/
theorem C171_below_partial (m : Eos) (T : ℝ) (k : Nat → ℝ) (h : GasRec k) (hT0 : 0 < T) (hT : T ≤ 0.99 * k 0) (hk : m = .PRSV → k 3 = 0 ∧ k 4 = 0) :
    ∃ P > 0, ∃ v1 v2 v3, (parsOf m T k).b < v1 ∧ v1 < v2 ∧ v2 < v3 ∧ P = eosOf m T k v1 ∧ P = eosOf m T k v2 ∧ P = eosOf m T k v3 := by
  have hTc := h.Tc
  have hs : 0 < Rgas * T := mul_pos Rpos hT0
  have hb := (parsOf_pos (m := m) (T := T) h.Tc h.Pc).2
  obtain ⟨e1, e2⟩ := parsOf_form (m := m) (T := T) h (.inr hk)
  have h0 := (alphaOf_range (m := m) h.lo h.hi).1
  have key : ∀ κ0 : ℝ, 0 < κ0 → κ0 * cB m * 0.99 ≤ cA m → 0 ≤ cA m →
      (∀ κ, κ0 ≤ κ → ∃ x, 1 < x ∧ κ * (x - 1) < x ^ 2 + mOf m * x + nOf m ∧
        (x ^ 2 + mOf m * x + nOf m) ^ 2 < κ * ((2 * x + mOf m) * (x - 1) ^ 2)) → ∃ P > 0, ∃ v1 v2 v3, (parsOf m T k).b < v1 ∧ v1 < v2 ∧ v2 < v3 ∧ P = eosOf m T k v1 ∧
        P = eosOf m T k v2 ∧ P = eosOf m T k v3 := by
    intro κ0 hκ0 hc hca hx
    have hst : κ0 * ((parsOf m T k).b * (Rgas * T)) ≤ (parsOf m T k).a := by
      rw [e1, e2]
      exact strong_of_below h.Pc hT0 hT h0 hca hc
    have hbs : 0 < (parsOf m T k).b * (Rgas * T) := mul_pos hb hs
    obtain ⟨x, hx1, hx2, hx3⟩ := hx ((parsOf m T k).a / ((parsOf m T k).b * (Rgas * T))) (by rwa [le_div_iff₀ hbs])
    rw [eosOf_pres]
    refine pres_three hs (lt_of_lt_of_le (mul_pos hκ0 hbs) hst) hb (mn_pos m).1 (mn_pos m).2 hx1 ?_ ?_
    · rw [div_mul_eq_mul_div, div_lt_iff₀ hbs] at hx2
      linarith
    · rw [div_mul_eq_mul_div, lt_div_iff₀ hbs] at hx3
      linarith
  cases m
  · exact key 5.93 (by norm_num) (by norm_num [cA, cB]) (by norm_num [cA]) (fun κ hκ => pr_strong hκ)
  · exact key 4.98 (by norm_num) (by norm_num [cA, cB]) (by norm_num [cA]) (fun κ hκ => srk_strong hκ)
  · exact key 5.93 (by norm_num) (by norm_num [cA, cB]) (by norm_num [cA]) (fun κ hκ => pr_strong hκ)

lemma exCrit_rec : GasRec exCrit := by
  constructor
  · rw [ex0]; norm_num
  · rw [ex1]; norm_num
  · rw [ex2]; norm_num
  · rw [ex2]; norm_num

/-- The gas of `exCrit` (Tc = 300 K) at 432 K and 500 bar, and at 200 K. -/
example : (∃! v, (parsOf .PRSV 432 exCrit).b < v ∧ 500 = eosOf .PRSV 432 exCrit v) ∧
    ∃ P > 0, ∃ v1 v2 v3, (parsOf .SRK 200 exCrit).b < v1 ∧ v1 < v2 ∧ v2 < v3 ∧ P = eosOf .SRK 200 exCrit v1 ∧ P = eosOf .SRK 200 exCrit v2 ∧ P = eosOf .SRK 200 exCrit v3 :=
  ⟨C171_above_partial .PRSV 432 500 exCrit exCrit_rec (by rw [ex0]; norm_num) (by norm_num),
   C171_below_partial .SRK 200 exCrit exCrit_rec (by norm_num) (by rw [ex0]; norm_num) (fun h => absurd h (by decide))⟩

/-! ## What the program returns above the critical temperature -/

/-- A cubic whose only root is not the inflexion point has a negative discriminant. -/
lemma discr_of_unique {a2 a1 a0 y : ℝ} (hy : cubic a2 a1 a0 y = 0) (hu : ∀ z, cubic a2 a1 a0 z = 0 → z = y) (hi : cubic a2 a1 a0 (-a2 / 3) ≠ 0) :
    discr a2 a1 a0 < 0 := by
  unfold cubic at hy hu
  have hneg : (a2 + y) ^ 2 - 4 * (a1 + y * (a2 + y)) < 0 := by
    by_contra hn
    obtain ⟨r, hr⟩ : ∃ r : ℝ, r ^ 2 = (a2 + y) ^ 2 - 4 * (a1 + y * (a2 + y)) := ⟨_, Real.sq_sqrt (not_lt.1 hn)⟩
    have h1 := hu ((-(a2 + y) + r) / 2) (by linear_combination hy + ((-(a2 + y) + r) / 2 - y) / 4 * hr)
    have h2 := hu ((-(a2 + y) - r) / 2) (by linear_combination hy + ((-(a2 + y) - r) / 2 - y) / 4 * hr)
    have : -a2 / 3 = y := by linarith
    rw [this] at hi
    exact hi hy
  have hpos : 0 < y ^ 2 + (a2 + y) * y + (a1 + y * (a2 + y)) := by nlinarith [sq_nonneg (2 * y + (a2 + y))]
  have e : discr a2 a1 a0 = ((a2 + y) ^ 2 - 4 * (a1 + y * (a2 + y))) * (y ^ 2 + (a2 + y) * y + (a1 + y * (a2 + y))) ^ 2 := by
    have h0 : a0 = -(y ^ 3 + a2 * y ^ 2 + a1 * y) := by linear_combination hy
    rw [h0]
    unfold discr
    ring
  rw [e]
  exact mul_neg_of_neg_of_pos hneg (by positivity)

/-- The cubic of the program has no root at or below B when the attraction is not too weak. -/
lemma no_low_root {m n A B z : ℝ} (hB : 0 < B) (hA : (1.2 + 2 * B) * B ≤ A) (hz : z ≤ B) (hmn : (m = 2 ∧ n = -1) ∨ (m = 1 ∧ n = 0)) :
    (z - B - 1) * (z ^ 2 + m * B * z + n * B ^ 2) + A * (z - B) ≠ 0 := by
  obtain ⟨t, ht, rfl⟩ : ∃ t, 0 ≤ t ∧ z = B - t * B := ⟨(B - z) / B, div_nonneg (by linarith) hB.le, by field_simp; ring⟩
  have hAt := mul_le_mul_of_nonneg_right hA ht
  refine ne_of_lt ?_
  rcases hmn with ⟨rfl, rfl⟩ | ⟨rfl, rfl⟩
  · have e : (B - t * B - B - 1) * ((B - t * B) ^ 2 + 2 * B * (B - t * B) + -1 * B ^ 2) + A * (B - t * B - B) =
        -(B * (B * ((1 + B * t) * (t ^ 2 - 4 * t + 2)) + A * t)) := by ring
    rw [e]
    have h1 : 0 ≤ B * t * (t - 2) ^ 2 := by positivity
    have h2 : 0 < t ^ 2 - 2.8 * t + 2 := by nlinarith [sq_nonneg (t - 1.4)]
    have h3 : 0 < B * (B * t * (t - 2) ^ 2 + (t ^ 2 - 2.8 * t + 2)) := by positivity
    have : 0 < B * ((1 + B * t) * (t ^ 2 - 4 * t + 2)) + A * t := by linarith
    have := mul_pos hB this
    linarith
  · have e : (B - t * B - B - 1) * ((B - t * B) ^ 2 + 1 * B * (B - t * B) + 0 * B ^ 2) + A * (B - t * B - B) =
        -(B * (B * ((1 + B * t) * (t ^ 2 - 3 * t + 2)) + A * t)) := by ring
    rw [e]
    have h1 : 0 ≤ B * t * ((t - 1.5) ^ 2 + 1.75) := by positivity
    have h2 : 0 < t ^ 2 - 1.8 * t + 2 := by nlinarith [sq_nonneg (t - 0.9)]
    have h3 : 0 < B * (B * t * ((t - 1.5) ^ 2 + 1.75) + (t ^ 2 - 1.8 * t + 2)) := by positivity
    have : 0 < B * ((1 + B * t) * (t ^ 2 - 3 * t + 2)) + A * t := by linarith
    have := mul_pos hB this
    linarith

/-- The volume z R T / P of a root of the cubic. -/
lemma pres_of_root {m n s a b P z : ℝ} (hs : 0 < s) (hP : 0 < P) (hb : 0 < b) (hm : 0 ≤ m) (hmn : 0 < 1 + m + n) (hz : b * P / s < z) :
    b < z * s / P ∧
    ((z - b * P / s - 1) * (z ^ 2 + m * (b * P / s) * z + n * (b * P / s) ^ 2) + a * P / s ^ 2 * (z - b * P / s) = 0 ↔ P = pres m n s a b (z * s / P)) := by
  have hv : b < z * s / P := by
    rw [lt_div_iff₀ hP]
    rwa [div_lt_iff₀ hs] at hz
  refine ⟨hv, ?_⟩
  rw [pres_cubic hv (den_pos hb hv hm hmn.le)]
  have e : (P * (z * s / P - b) - s) * ((z * s / P) ^ 2 + m * b * (z * s / P) + n * b ^ 2) + a * (z * s / P - b) =
      s ^ 3 / P ^ 2 * ((z - b * P / s - 1) * (z ^ 2 + m * (b * P / s) * z + n * (b * P / s) ^ 2) + a * P / s ^ 2 * (z - b * P / s)) := by
    field_simp
  rw [e, mul_eq_zero, or_iff_right (by positivity)]

/-- Above the critical temperature the cubic of the program has a single root. -/
lemma single_above {m n s a b P : ℝ} (hs : 0 < s) (hP : 0 < P) (ha0 : 0 ≤ a) (hb : 0 < b) (hmn : (m = 2 ∧ n = -1) ∨ (m = 1 ∧ n = 0))
    (hanti : StrictAntiOn (pres m n s a b) (Ioi b)) (ha : 1.2 * (b * s) + 2 * b ^ 2 * P ≤ a)
    (hi : P ≠ pres m n s a b ((s / P - (m - 1) * b) / 3)) :
    let A := a * P / s ^ 2
    let B := b * P / s
    discr (m * B - B - 1) (n * B ^ 2 - m * B ^ 2 - m * B + A) (-n * B ^ 3 - n * B ^ 2 - A * B) < 0 ∧
    cubic (m * B - B - 1) (n * B ^ 2 - m * B ^ 2 - m * B + A) (-n * B ^ 3 - n * B ^ 2 - A * B) (-(m * B - B - 1) / 3) ≠ 0 := by
  intro A B
  have hm : 0 ≤ m := by rcases hmn with ⟨rfl, -⟩ | ⟨rfl, -⟩ <;> norm_num
  have hmn' : 0 < 1 + m + n := by rcases hmn with ⟨rfl, rfl⟩ | ⟨rfl, rfl⟩ <;> norm_num
  have hB : 0 < B := by positivity
  have hA : (1.2 + 2 * B) * B ≤ A := by
    have : (1.2 + 2 * B) * B = (1.2 * (b * s) + 2 * b ^ 2 * P) * (P / s ^ 2) := by
      simp only [B]; field_simp
    rw [this]
    calc _ ≤ a * (P / s ^ 2) := mul_le_mul_of_nonneg_right ha (by positivity)
      _ = A := by simp only [A]; ring
  have hc : ∀ z, cubic (m * B - B - 1) (n * B ^ 2 - m * B ^ 2 - m * B + A) (-n * B ^ 3 - n * B ^ 2 - A * B) z =
      (z - B - 1) * (z ^ 2 + m * B * z + n * B ^ 2) + A * (z - B) := by
    intro z
    unfold cubic
    ring
  have hroot : ∀ z, cubic (m * B - B - 1) (n * B ^ 2 - m * B ^ 2 - m * B + A) (-n * B ^ 3 - n * B ^ 2 - A * B) z = 0 →
      b < z * s / P ∧ P = pres m n s a b (z * s / P) := by
    intro z hz
    rw [hc] at hz
    have hzB : B < z := by
      by_contra hn
      exact no_low_root hB hA (not_lt.1 hn) hmn hz
    obtain ⟨h1, h2⟩ := pres_of_root (a := a) hs hP hb hm hmn' hzB
    exact ⟨h1, h2.1 hz⟩
  obtain ⟨v, hv, e⟩ := pres_exists hs ha0 hb hm hmn' hP
  have hvz : v = v * P / s * s / P := by field_simp
  have hinf : cubic (m * B - B - 1) (n * B ^ 2 - m * B ^ 2 - m * B + A) (-n * B ^ 3 - n * B ^ 2 - A * B) (-(m * B - B - 1) / 3) ≠ 0 := by
    intro h0
    have := (hroot _ h0).2
    rw [show -(m * B - B - 1) / 3 * s / P = (s / P - (m - 1) * b) / 3 by simp only [B]; field_simp; ring] at this
    exact hi this
  refine ⟨?_, hinf⟩
  refine discr_of_unique (y := v * P / s) ?_ ?_ hinf
  · rw [hc]
    have hz : B < v * P / s := by
      simp only [B]
      gcongr
    refine (pres_of_root (a := a) hs hP hb hm hmn' hz).2.2 ?_
    rw [← hvz]
    exact e
  · intro z hz
    obtain ⟨h1, h2⟩ := hroot z hz
    have := hanti.injOn h1 hv (h2.symm.trans e)
    rw [← this]
    field_simp

lemma prSingle_of {a b T P : ℝ} (h : let A := a * P / (Rgas * T) ^ 2
    let B := b * P / (Rgas * T)
    discr (2 * B - B - 1) (-1 * B ^ 2 - 2 * B ^ 2 - 2 * B + A) (-(-1) * B ^ 3 - -1 * B ^ 2 - A * B) < 0 ∧
    cubic (2 * B - B - 1) (-1 * B ^ 2 - 2 * B ^ 2 - 2 * B + A) (-(-1) * B ^ 3 - -1 * B ^ 2 - A * B) (-(2 * B - B - 1) / 3) ≠ 0) : PrSingle a b T P := by
  unfold PrSingle
  intro A B
  have e2 : 2 * B - B - 1 = B - 1 := by ring
  have e1 : -1 * B ^ 2 - 2 * B ^ 2 - 2 * B + A = A - 3 * B ^ 2 - 2 * B := by ring
  have e0 : -(-1) * B ^ 3 - -1 * B ^ 2 - A * B = B ^ 3 + B ^ 2 - A * B := by ring
  have h' : discr (2 * B - B - 1) (-1 * B ^ 2 - 2 * B ^ 2 - 2 * B + A) (-(-1) * B ^ 3 - -1 * B ^ 2 - A * B) < 0 ∧
    cubic (2 * B - B - 1) (-1 * B ^ 2 - 2 * B ^ 2 - 2 * B + A) (-(-1) * B ^ 3 - -1 * B ^ 2 - A * B) (-(2 * B - B - 1) / 3) ≠ 0 := h
  rwa [e2, e1, e0] at h'

lemma srkSingle_of {a b T P : ℝ} (h : let A := a * P / (Rgas * T) ^ 2
    let B := b * P / (Rgas * T)
    discr (1 * B - B - 1) (0 * B ^ 2 - 1 * B ^ 2 - 1 * B + A) (-0 * B ^ 3 - 0 * B ^ 2 - A * B) < 0 ∧
    cubic (1 * B - B - 1) (0 * B ^ 2 - 1 * B ^ 2 - 1 * B + A) (-0 * B ^ 3 - 0 * B ^ 2 - A * B) (-(1 * B - B - 1) / 3) ≠ 0) : SrkSingle a b T P := by
  unfold SrkSingle
  intro A B
  have e2 : 1 * B - B - 1 = -1 := by ring
  have e1 : 0 * B ^ 2 - 1 * B ^ 2 - 1 * B + A = A - B - B ^ 2 := by ring
  have e0 : -0 * B ^ 3 - 0 * B ^ 2 - A * B = -A * B := by ring
  have h' : discr (1 * B - B - 1) (0 * B ^ 2 - 1 * B ^ 2 - 1 * B + A) (-0 * B ^ 3 - 0 * B ^ 2 - A * B) < 0 ∧
    cubic (1 * B - B - 1) (0 * B ^ 2 - 1 * B ^ 2 - 1 * B + A) (-0 * B ^ 3 - 0 * B ^ 2 - A * B) (-(1 * B - B - 1) / 3) ≠ 0 := h
  rw [e2, e1, e0, neg_neg] at h'
  exact h'

/-- The volume of the inflexion point of the cubic, at which the root finder divides 0 by 0 (`C99_inflexion_refuted`). -/
noncomputable def inflexionOf (m : Eos) (T P : ℝ) (k : Nat → ℝ) : ℝ :=
  match m with
  | .SRK => Rgas * T / P / 3
  | _ => (Rgas * T / P - (parsOf m T k).b) / 3

/-- The cubic of each model has a single root above the critical temperature. -/
lemma single_of_rec {m : Eos} {T P : ℝ} {k : Nat → ℝ} (h : GasRec k) (hT : 1.0001 * k 0 ≤ T) (hP : 0 < P)
    (ha : 1.2 * ((parsOf m T k).b * (Rgas * T)) + 2 * (parsOf m T k).b ^ 2 * P ≤ (parsOf m T k).a) (hi : P ≠ eosOf m T k (inflexionOf m T P k)) :
    match m with
    | .SRK => SrkSingle (parsOf m T k).a (parsOf m T k).b T P
    | _ => PrSingle (parsOf m T k).a (parsOf m T k).b T P := by
  have hTc := h.Tc
  have hs : 0 < Rgas * T := mul_pos Rpos (by linarith)
  obtain ⟨ha0, hb⟩ := parsOf_pos (m := m) (T := T) h.Tc h.Pc
  have hanti := eosOf_anti (m := m) h hT
  rw [eosOf_pres] at hanti hi
  cases m
  · exact prSingle_of (single_above (m := 2) (n := -1) hs hP ha0 hb (.inl ⟨rfl, rfl⟩) hanti ha
      (by unfold inflexionOf at hi; norm_num at hi ⊢; exact hi))
  · exact srkSingle_of (single_above (m := 1) (n := 0) hs hP ha0 hb (.inr ⟨rfl, rfl⟩) hanti ha
      (by unfold inflexionOf at hi; norm_num at hi ⊢; exact hi))
  · exact prSingle_of (single_above (m := 2) (n := -1) hs hP ha0 hb (.inl ⟨rfl, rfl⟩) hanti ha
      (by unfold inflexionOf at hi; norm_num at hi ⊢; exact hi))

/-- **C171** (program): above the critical temperature the three gas models return the one volume of the equation.  The condition on a excludes
very high pressures and temperatures where the cubic has two more roots below b.  Missing: these, and the pressure at which the
inflexion point of the cubic is its root (`C171_inflexion_refuted`). -/
theorem C171_program_partial (m : Eos) (Tmin T P : ℝ) (k : Nat → ℝ) (h : GasRec k) (hT : 1.0001 * k 0 ≤ T)
    (hr : Tmin ≤ T ∧ T < 1e4 ∧ 1e-5 ≤ P ∧ P < 1e5)
    (ha : 1.2 * ((parsOf m T k).b * (Rgas * T)) + 2 * (parsOf m T k).b ^ 2 * P ≤ (parsOf m T k).a)
    (hi : P ≠ eosOf m T k (inflexionOf m T P k)) :
    ∃ f, calcFugPure m Tmin T P k = some f ∧ (parsOf m T k).b < f.v ∧ P = eosOf m T k f.v ∧
      ∀ v, (parsOf m T k).b < v → P = eosOf m T k v → v = f.v := by
  have hTc := h.Tc
  have hT0 : 0 < T := by linarith
  have hP : 0 < P := by linarith [hr.2.2.1]
  obtain ⟨ha0, hb⟩ := parsOf_pos (m := m) (T := T) h.Tc h.Pc
  have hsg := single_of_rec h hT hP ha hi
  unfold calcFugPure
  rw [if_pos hr]
  cases m
  · exact C100_pr_partial _ T P _ _ (parsOf .PRSV T k) hT0 hP ha0 hb hsg
  · exact C100_srk_partial T P (parsOf .SRK T k) hT0 hP ha0 hb hsg
  · exact C100_pr_partial _ T P _ _ (parsOf .PR78 T k) hT0 hP ha0 hb hsg

/-- **C171** (the other properties): under the same conditions all properties above the critical temperature belong together, for every record: the
residual Gibbs energy is R T ln φ with the volume as its pressure derivative, S is minus its temperature derivative with H = G + T S, and Cp is the derivative
of H.  The temperature is below the zero of the function of temperature (beyond it the sign of a root is lost, `C102_pr78_sign_refuted`). -/
theorem C171_consistent_partial (m : Eos) (T P : ℝ) (k : Nat → ℝ) (h : GasRec k) (hT : 1.0001 * k 0 ≤ T) (hP : 0 < P)
    (hα : alphaOf m (k 2) * (Real.sqrt (T / k 0) - 1) < 1)
    (ha : 1.2 * ((parsOf m T k).b * (Rgas * T)) + 2 * (parsOf m T k).b ^ 2 * P ≤ (parsOf m T k).a)
    (hi : P ≠ eosOf m T k (inflexionOf m T P k)) :
    (∃ f : ℝ → Fug, (∀ᶠ x in 𝓝 P, fugacityPT m T x k = some (f x)) ∧ (∀ᶠ x in 𝓝 P, (f x).g = Rgas * T * Real.log (f x).phi) ∧
      HasDerivAt (fun x => (f x).g) ((f P).v - Rgas * T / P) P) ∧
    EntropyOK (fun t => fugacityPT m t P k) T ∧ HeatOK (fun t => fugacityPT m t P k) T := by
  have hTc := h.Tc
  have hPc := h.Pc
  have hhi := h.hi
  have hT0 : 0 < T := by linarith
  obtain ⟨ha0, hb⟩ := parsOf_pos (m := m) (T := T) h.Tc h.Pc
  have hsg := single_of_rec h hT hP ha hi
  cases m
  · refine ⟨C101_pr_partial 0.457235 T P (k 0) (k 1) (parsOf .PRSV T k) hT0 hP ha0 hb hsg, ?_⟩
    refine prsv_ok hT0 hP hTc hPc (by linarith) (.inl (by linarith)) ?_ hsg
    have : alphaOf .PRSV (k 2) = k0S (k 2) := rfl
    rw [← this]
    linarith
  · refine ⟨C101_srk_partial T P (parsOf .SRK T k) hT0 hP ha0 hb hsg, ?_⟩
    exact srk_ok hT0 hP hTc hPc hsg
  · refine ⟨C101_pr_partial 0.457235529 T P (k 0) (k 1) (parsOf .PR78 T k) hT0 hP ha0 hb hsg, ?_⟩
    refine pr78_ok hT0 hP hTc hPc (by linarith) ?_ hsg
    have : alphaOf .PR78 (k 2) = pr78k (k 2) := by rw [pr78k, if_pos (by linarith)]; rfl
    rw [← this]
    linarith

/-- The gas of `exCrit` at 432 K and 100 bar meets the conditions. -/
lemma exCrit_cond : 1.2 * ((parsOf .PR78 432 exCrit).b * (Rgas * 432)) + 2 * (parsOf .PR78 432 exCrit).b ^ 2 * 100 ≤ (parsOf .PR78 432 exCrit).a ∧
    100 ≠ eosOf .PR78 432 exCrit (inflexionOf .PR78 432 100 exCrit) ∧ alphaOf .PR78 (exCrit 2) * (Real.sqrt (432 / exCrit 0) - 1) < 1 := by
  have hs : Real.sqrt (432 / 300) = 1.2 := sqrt_ex 1.2 (by norm_num) (by norm_num)
  obtain ⟨e1, e2⟩ := parsOf_form (m := .PR78) (T := 432) exCrit_rec (.inl (by rw [ex0]; norm_num))
  rw [ex0, ex1, ex2, hs] at e1
  rw [ex0, ex1] at e2
  refine ⟨?_, ?_, ?_⟩
  · rw [e1, e2]
    norm_num [alphaOf, cA, cB, Rgas]
  · unfold eosOf inflexionOf prPressure
    dsimp only
    rw [e1, e2]
    norm_num [alphaOf, cA, cB, Rgas]
  · rw [ex0, ex2, hs]
    norm_num [alphaOf]

example : (∃ f, calcFugPure .PR78 200 432 100 exCrit = some f ∧ (parsOf .PR78 432 exCrit).b < f.v ∧ 100 = eosOf .PR78 432 exCrit f.v ∧
    ∀ v, (parsOf .PR78 432 exCrit).b < v → 100 = eosOf .PR78 432 exCrit v → v = f.v) ∧ HeatOK (fun t => fugacityPT .PR78 t 100 exCrit) 432 :=
  ⟨C171_program_partial .PR78 200 432 100 exCrit exCrit_rec (by rw [ex0]; norm_num) (by norm_num) exCrit_cond.1 exCrit_cond.2.1,
   (C171_consistent_partial .PR78 432 100 exCrit exCrit_rec (by rw [ex0]; norm_num) (by norm_num) exCrit_cond.2.2 exCrit_cond.1 exCrit_cond.2.1).2.2⟩

/-- A heavy molecule: Tc = 500 K, Pc = 20 bar, acentric factor 1. -/
def heavyCrit : Nat → ℝ := fun i => if i = 0 then 500 else if i = 1 then 20 else if i = 2 then 1 else 0

/-- **C171** is violated for large acentric factors: the function (1 + k (1 − √(T/Tc)))² is used at all temperatures; it has a zero at √(T/Tc) = 1 + 1/k and
rises again behind it, and with k > 1 the attraction gets as strong again as below the critical temperature.  A molecule with Tc = 500 K
and the acentric factor 1 condenses again at 8000 K, which is inside the range of temperatures the code accepts. -/
theorem C171_heavy_refuted :
    heavyCrit 0 = 500 ∧ ∃ P > 0, ∃ v1 v2 v3, (parsOf .PR78 8000 heavyCrit).b < v1 ∧ v1 < v2 ∧ v2 < v3 ∧
      P = eosOf .PR78 8000 heavyCrit v1 ∧ P = eosOf .PR78 8000 heavyCrit v2 ∧ P = eosOf .PR78 8000 heavyCrit v3 := by
  have h0 : heavyCrit 0 = 500 := by norm_num [heavyCrit]
  have h1 : heavyCrit 1 = 20 := by norm_num [heavyCrit]
  have h2 : heavyCrit 2 = 1 := by norm_num [heavyCrit]
  refine ⟨h0, ?_⟩
  have hs : 0 < Rgas * 8000 := by have := Rpos; positivity
  have eb : (parsOf .PR78 8000 heavyCrit).b = 0.0777960739 * Rgas * 500 / 20 := by
    change 0.0777960739 * Rgas * heavyCrit 0 / heavyCrit 1 = _
    rw [h0, h1]
  have ea : (parsOf .PR78 8000 heavyCrit).a = (1 + (0.379642 + 1.48503 * 1 - 0.164423 * 1 ^ 2 + 0.0166666 * 1 ^ 3) * (1 - 4)) ^ 2
      * (0.457235529 * Rgas ^ 2 * 500 ^ 2 / 20) := by
    unfold parsOf pr78AB
    dsimp only
    rw [h0, h1, h2, sqrt_ex 4 (by norm_num) (by norm_num : (8000 / 500 : ℝ) = 4 ^ 2), pr78k, if_neg (by norm_num)]
  have hb : 0 < (parsOf .PR78 8000 heavyCrit).b := by rw [eb]; have := Rpos; positivity
  have hbs : 0 < (parsOf .PR78 8000 heavyCrit).b * (Rgas * 8000) := mul_pos hb hs
  have hst : 5.93 * ((parsOf .PR78 8000 heavyCrit).b * (Rgas * 8000)) ≤ (parsOf .PR78 8000 heavyCrit).a := by
    rw [ea, eb]
    unfold Rgas
    norm_num
  obtain ⟨x, hx1, hx2, hx3⟩ := pr_strong (κ := (parsOf .PR78 8000 heavyCrit).a / ((parsOf .PR78 8000 heavyCrit).b * (Rgas * 8000)))
    (by rwa [le_div_iff₀ hbs])
  rw [eosOf_pres]
  refine pres_three hs (lt_of_lt_of_le (by positivity) hst) hb (mn_pos _).1 (mn_pos _).2 hx1 ?_ ?_
  · rw [div_mul_eq_mul_div, div_lt_iff₀ hbs] at hx2
    change _ < _ * _ * (x ^ 2 + 2 * x + -1)
    linarith
  · rw [div_mul_eq_mul_div, lt_div_iff₀ hbs] at hx3
    change _ * _ * (x ^ 2 + 2 * x + -1) ^ 2 < _ * ((2 * x + 2) * _)
    linarith

/-- **C171** is violated at single pressures: where the root is the inflexion point of the cubic the solver divides 0 by 0 (`C99_inflexion_refuted`), and such
pressures exist for ordinary gases.  A gas with the critical constants of carbon dioxide, six degrees above its critical temperature, has a pressure between
82.6 and 97 bar at which no property is returned, although the equation has one volume there. -/
theorem C171_inflexion_refuted :
    ∃ P, 82.6 < P ∧ P < 97 ∧ calcFugPure .PR78 200 306.03 P exCrit = none ∧
      ∃! v, (parsOf .PR78 306.03 exCrit).b < v ∧ P = eosOf .PR78 306.03 exCrit v := by
  have hs : Real.sqrt (306.03 / 300) = 1.01 := sqrt_ex 1.01 (by norm_num) (by norm_num)
  obtain ⟨e1, e2⟩ := parsOf_form (m := .PR78) (T := 306.03) exCrit_rec (.inl (by rw [ex0]; norm_num))
  rw [ex0, ex1, ex2, hs] at e1
  rw [ex0, ex1] at e2
  have hR := Rpos
  -- A and B are proportional to the pressure
  obtain ⟨α, hα⟩ : ∃ α : ℝ, α = (1 + (0.37464 + 1.54226 * 0.225 - 0.26992 * 0.225 ^ 2) * (1 - 1.01)) ^ 2 * 0.457235529 * 300 ^ 2 / 74 / 306.03 ^ 2 := ⟨_, rfl⟩
  obtain ⟨β, hβ⟩ : ∃ β : ℝ, β = 0.0777960739 * 300 / 74 / 306.03 := ⟨_, rfl⟩
  have hA : ∀ P, (parsOf .PR78 306.03 exCrit).a * P / (Rgas ^ 2 * 306.03 ^ 2) = α * P := by
    intro P
    rw [e1, hα]
    dsimp only [alphaOf, cA]
    field_simp
  have hB : ∀ P, (parsOf .PR78 306.03 exCrit).b * P / (Rgas * 306.03) = β * P := by
    intro P
    rw [e2, hβ]
    dsimp only [cB]
    field_simp
  let g : ℝ → ℝ := fun P => cr (β * P - 1) (α * P - 3 * (β * P) ^ 2 - 2 * (β * P)) ((β * P) ^ 3 + (β * P) ^ 2 - α * P * (β * P))
  have hg : ContinuousOn g (Icc 82.6 97) := by
    simp only [g, cr]
    fun_prop
  have h0 : g 82.6 < 0 := by
    simp only [g, cr]
    rw [hα, hβ]
    norm_num
  have h1 : 0 < g 97 := by
    simp only [g, cr]
    rw [hα, hβ]
    norm_num
  obtain ⟨P, hP, hr⟩ := intermediate_value_Ioo (by norm_num) hg ⟨h0, h1⟩
  refine ⟨P, hP.1, hP.2, ?_, C171_above_partial .PR78 306.03 P exCrit exCrit_rec (by rw [ex0]; norm_num) (by linarith [hP.1])⟩
  have hq : cq (β * P - 1) (α * P - 3 * (β * P) ^ 2 - 2 * (β * P)) < 0 := by
    have hp : 0 ≤ (P - 82.6) * (97 - P) := mul_nonneg (by linarith [hP.1]) (by linarith [hP.2])
    have h3 := hP.1
    have h4 := hP.2
    unfold cq
    rw [hα, hβ]
    norm_num
    nlinarith
  unfold calcFugPure
  rw [if_pos ⟨by norm_num, by norm_num, by linarith [hP.1], by linarith [hP.2]⟩]
  change prPure 0.457235529 306.03 P (exCrit 0) (exCrit 1) (parsOf .PR78 306.03 exCrit) = none
  unfold prPure
  dsimp only
  rw [hA, hB, Option.map_eq_none_iff]
  unfold cardano
  dsimp only
  have hr' : (2 * (β * P - 1) ^ 3 - 9 * (β * P - 1) * (α * P - 3 * (β * P) ^ 2 - 2 * (β * P)) + 27 * ((β * P) ^ 3 + (β * P) ^ 2 - α * P * (β * P))) / 54 = 0 := hr
  rw [hr', if_neg, if_pos rfl]
  have : cq (β * P - 1) (α * P - 3 * (β * P) ^ 2 - 2 * (β * P)) ^ 3 < 0 := Odd.pow_neg (by decide) hq
  unfold cq at this
  rw [not_lt]
  refine this.le.trans ?_
  norm_num

/-- **C100** is violated at single pressures: a gas with the critical constants of carbon dioxide gets no volume at 306.03 K and a pressure between 82.6 and 97
bar, where the root is the inflexion point of the cubic, although the equation of state has a solution above b there. -/
theorem C100_inflexion_refuted :
    ∃ P v, 82.6 < P ∧ P < 97 ∧ (parsOf .PR78 306.03 exCrit).b < v ∧ P = prPressure (parsOf .PR78 306.03 exCrit).a (parsOf .PR78 306.03 exCrit).b 306.03 v ∧
      fugacityPT .PR78 306.03 P exCrit = none := by
  obtain ⟨P, h1, h2, h3, v, ⟨h4, h5⟩, -⟩ := C171_inflexion_refuted
  refine ⟨P, v, h1, h2, h4, h5, ?_⟩
  unfold calcFugPure at h3
  rwa [if_pos ⟨by norm_num, by norm_num, by linarith, by linarith⟩] at h3

end ThermoFun.Gas

import Verif.Lemmas.Jet
import Verif.Model.WagnerPruss
import Mathlib.Tactic.FinCases

/-! The terms of the Wagner–Pruss equation are functions with their partial derivatives. -/

namespace ThermoFun

namespace WP

variable {x y : ℝ}

lemma add_eq (p q : Helm) : add p q = p.plus q := rfl

/-- A function of the first variable. -/
lemma idealT (n g : ℝ) (hg : 0 < g * x) :
    Jet (fun x _ => Helm.ofT (n * Real.log (1 - 1 / Real.exp (g * x))) (n * (g / (Real.exp (g * x) - 1)))
      (-(n * Real.exp (g * x) * (g / (Real.exp (g * x) - 1)) ^ 2))
      (n * Real.exp (g * x) * (1 + Real.exp (g * x)) * (g / (Real.exp (g * x) - 1)) ^ 3)) x y := by
  have he : HasDerivAt (fun x => Real.exp (g * x)) (g * Real.exp (g * x)) x := by
    have := ((hasDerivAt_id' x).const_mul g).exp
    exact this.congr_deriv (by ring)
  have h1 : 1 < Real.exp (g * x) := Real.one_lt_exp_iff.mpr hg
  have h0 : Real.exp (g * x) ≠ 0 := (Real.exp_pos _).ne'
  have hm : Real.exp (g * x) - 1 ≠ 0 := by linarith
  have hq : HasDerivAt (fun x => g / (Real.exp (g * x) - 1)) (-(g * (g * Real.exp (g * x))) / (Real.exp (g * x) - 1) ^ 2) x := by
    have := (hasDerivAt_const x g).fun_div (he.sub_const 1) hm
    exact this.congr_deriv (by ring)
  refine .ofT ?_ ?_ ?_
  · have h2 : (1 : ℝ) - 1 / Real.exp (g * x) ≠ 0 := by
      rw [sub_ne_zero]; intro h; apply hm; field_simp at h; linarith
    have := (((((hasDerivAt_const x (1 : ℝ)).fun_div he h0).const_sub 1).log h2)).const_mul n
    refine this.congr_deriv ?_
    have h3 : (1 : ℝ) - 1 / Real.exp (g * x) = (Real.exp (g * x) - 1) / Real.exp (g * x) := by field_simp
    rw [h3]
    field_simp
    ring
  · refine (hq.const_mul n).congr_deriv ?_
    field_simp
  · refine (((he.const_mul n).mul (hq.fun_pow 2)).neg).congr_deriv ?_
    simp only [Nat.cast_ofNat, Nat.add_one_sub_one, pow_one]
    field_simp
    ring

lemma jet_log {y : ℝ} (hy : y ≠ 0) : HasDerivAt Real.log (1 / y) y ∧ HasDerivAt (fun y : ℝ => 1 / y) (-1 / y ^ 2) y ∧
    HasDerivAt (fun y : ℝ => -1 / y ^ 2) (2 / y ^ 3) y := by
  refine ⟨(Real.hasDerivAt_log hy).congr_deriv (by rw [one_div]), ?_, ?_⟩
  · exact ((hasDerivAt_const y (1 : ℝ)).fun_div (hasDerivAt_id' y) hy).congr_deriv (by ring)
  · refine ((hasDerivAt_const y (-1 : ℝ)).fun_div ((hasDerivAt_id' y).fun_pow 2) (by positivity)).congr_deriv ?_
    simp only [Nat.cast_ofNat, Nat.add_one_sub_one, pow_one]
    field_simp
    ring

lemma ideal_jet (k : Coef) (hx : 0 < x) (hy : 0 < y) (hg : ∀ j < 5, 0 < el k.gammao j) : Jet (ideal k) x y := by
  obtain ⟨l1, l2, l3⟩ := jet_log hy.ne'
  obtain ⟨m1, m2, m3⟩ := jet_log hx.ne'
  have hs : Jet (fun _ y => Helm.ofD (Real.log y) (1 / y) (-1 / y ^ 2) (2 / y ^ 3)) x y := .ofD l1 l2 l3
  have ht : Jet (fun x _ => (Helm.ofT (Real.log x) (1 / x) (-1 / x ^ 2) (2 / x ^ 3)).scale (el k.no 3)) x y := (Jet.ofT m1 m2 m3).scale _
  have hi := fun i j (hj : j < 5) => idealT (x := x) (y := y) (el k.no i) (el k.gammao j) (mul_pos (hg j hj) hx)
  refine ((((((((hs.plus (.const (el k.no 1))).plus (Jet.varT.scale (el k.no 2))).plus ht).plus (hi 4 0 (by omega))).plus
    (hi 5 1 (by omega))).plus (hi 6 2 (by omega))).plus (hi 7 3 (by omega))).plus (hi 8 4 (by omega))).congr_fun fun x y => ?_
  have hl : (List.range 5).map (· + 4) = [4, 5, 6, 7, 8] := by decide
  simp only [ideal, hl, List.foldl_cons, List.foldl_nil, Nat.sub_self, show 5 - 4 = 1 by rfl, show 6 - 4 = 2 by rfl, show 7 - 4 = 3 by rfl,
    show 8 - 4 = 4 by rfl]
  ext <;> simp only [Helm.plus, Helm.ofD, Helm.ofT, Helm.const, Helm.scale] <;> ring

lemma termA_jet (n d t : ℝ) (hx : 0 < x) (hy : 0 < y) : Jet (termA n d t) x y := by
  refine (((Jet.powD hy.ne' d).times (.powT hx.ne' t)).scale n).congr_fun fun x y => ?_
  ext <;> simp only [termA, Helm.times, Helm.ofD, Helm.ofT, Helm.scale] <;> ring

lemma termB_jet (n d t c : ℝ) (hx : 0 < x) (hy : 0 < y) : Jet (termB n d t c) x y := by
  have he : Jet _ x y := ((Jet.powD (x := x) hy.ne' c).scale (-1)).exp
  refine ((((Jet.powD hy.ne' d).times (.powT hx.ne' t)).times he).scale n).congr_fun fun x y => ?_
  ext <;> simp only [termB, Helm.times, Helm.ofD, Helm.ofT, Helm.scale, Helm.lift, neg_mul, one_mul] <;> ring

/-- `-a(y - e)² - b(x - g)²`. -/
lemma gauss_jet (a e b g : ℝ) : Jet (fun x y => (Helm.ofD (-a * (y - e) ^ 2) (-2 * a * (y - e)) (-2 * a) 0).plus
    (Helm.ofT (-b * (x - g) ^ 2) (-2 * b * (x - g)) (-2 * b) 0)) x y := by
  have h : ∀ a e y : ℝ, HasDerivAt (fun y : ℝ => -a * (y - e) ^ 2) (-2 * a * (y - e)) y ∧ HasDerivAt (fun y : ℝ => -2 * a * (y - e)) (-2 * a) y := by
    intro a e y
    constructor
    · refine ((((hasDerivAt_id' y).sub_const e).fun_pow 2).const_mul (-a)).congr_deriv ?_
      simp only [Nat.cast_ofNat, Nat.add_one_sub_one, pow_one]; ring
    · exact (((hasDerivAt_id' y).sub_const e).const_mul (-2 * a)).congr_deriv (by ring)
  exact (Jet.ofD (h a e y).1 (h a e y).2 (hasDerivAt_const y _)).plus (Jet.ofT (h b g x).1 (h b g x).2 (hasDerivAt_const x _))

lemma termC_jet (n d t alpha beta gamma epsilon : ℝ) (hx : 0 < x) (hy : 0 < y) : Jet (termC n d t alpha beta gamma epsilon) x y := by
  refine ((((Jet.powD hy.ne' d).times (.powT hx.ne' t)).times (gauss_jet alpha epsilon beta gamma).exp).scale n).congr_fun fun x y => ?_
  have he : -alpha * (y - epsilon) ^ 2 + -beta * (x - gamma) ^ 2 = -alpha * (y - epsilon) ^ 2 - beta * (x - gamma) ^ 2 := by ring
  ext <;> simp only [termC, Helm.times, Helm.ofD, Helm.ofT, Helm.scale, Helm.lift, Helm.plus, add_zero, zero_add, he] <;> ring

lemma psi_jet (C F : ℝ) : Jet (psi C F) x y := by
  refine (gauss_jet C 1 F 1).exp.congr_fun fun x y => ?_
  have he : -C * (y - 1) ^ 2 + -F * (x - 1) ^ 2 = -C * (y - 1) ^ 2 - F * (x - 1) ^ 2 := by ring
  ext <;> simp only [psi, Helm.ofD, Helm.ofT, Helm.lift, Helm.plus, add_zero, zero_add, he] <;> ring

/-- `(y - 1)²` to a power. -/
lemma ddpow_jet (p : ℝ) (hy : y ≠ 1) : Jet (fun _ y => Helm.ofD (((y - 1) ^ 2) ^ p) (2 * p / (y - 1) * ((y - 1) ^ 2) ^ p)
    (2 * p * (2 * p - 1) / (y - 1) ^ 2 * ((y - 1) ^ 2) ^ p) (2 * p * (2 * p - 1) * (2 * p - 2) / (y - 1) ^ 3 * ((y - 1) ^ 2) ^ p)) x y := by
  have h1 : y - 1 ≠ 0 := sub_ne_zero.mpr hy
  have hd : HasDerivAt (fun y : ℝ => y - 1) 1 y := (hasDerivAt_id' y).sub_const 1
  have h0 : HasDerivAt (fun y : ℝ => ((y - 1) ^ 2) ^ p) (2 * p / (y - 1) * ((y - 1) ^ 2) ^ p) y := by
    have := (hasDerivAt_pow0 (pow_ne_zero 2 h1) p).comp y (hd.fun_pow 2)
    refine this.congr_deriv ?_
    simp only [Nat.cast_ofNat, Nat.add_one_sub_one, pow_one, mul_one]
    field_simp
  refine .ofD h0 ?_ ?_
  · refine (((hasDerivAt_const y (2 * p)).fun_div hd h1).mul h0).congr_deriv ?_
    field_simp
    ring
  · refine (((hasDerivAt_const y (2 * p * (2 * p - 1))).fun_div (hd.fun_pow 2) (pow_ne_zero 2 h1)).mul h0).congr_deriv ?_
    simp only [Nat.cast_ofNat, Nat.add_one_sub_one, pow_one, mul_one]
    field_simp
    ring

lemma eventually_ne_one (hy : y ≠ 1) : ∀ᶠ q : ℝ × ℝ in nhds (x, y), q.2 ≠ 1 := by
  have hc : ContinuousAt (fun q : ℝ × ℝ => q.2) (x, y) := continuousAt_snd
  exact hc.eventually_ne hy

lemma theta_jet (A E : ℝ) (hE : E ≠ 0) (hy : y ≠ 1) : Jet (theta A E) x y := by
  refine (((Jet.const (1 : ℝ)).plus (Jet.varT.scale (-1))).plus ((ddpow_jet (0.5 / E) hy).scale A)).congr_ev ((eventually_ne_one hy).mono fun q hq => ?_)
  obtain ⟨x, y⟩ := q
  have h1 : y - 1 ≠ 0 := sub_ne_zero.mpr hq
  ext <;> simp only [theta, Helm.ofD, Helm.ofT, Helm.const, Helm.scale, Helm.plus] <;> generalize ((y - 1) ^ 2 : ℝ) ^ (0.5 / E) = r <;> field_simp <;> ring

lemma bigDelta_jet (A E B a : ℝ) (hE : E ≠ 0) (hy : y ≠ 1) : Jet (fun x y => bigDelta B a (theta A E x y) y) x y := by
  refine (((theta_jet A E hE hy).times (theta_jet A E hE hy)).plus ((ddpow_jet a hy).scale B)).congr_ev ((eventually_ne_one hy).mono fun q hq => ?_)
  obtain ⟨x, y⟩ := q
  have h1 : y - 1 ≠ 0 := sub_ne_zero.mpr hq
  have e1 : (theta A E x y).fT = -1 := rfl
  have e2 : (theta A E x y).fTT = 0 := rfl
  have e3 : (theta A E x y).fTD = 0 := rfl
  have e4 : (theta A E x y).fTTT = 0 := rfl
  have e5 : (theta A E x y).fTTD = 0 := rfl
  have e6 : (theta A E x y).fTDD = 0 := rfl
  simp only
  generalize theta A E x y = h at *
  ext <;> simp only [bigDelta, Helm.ofD, Helm.times, Helm.scale, Helm.plus, e1, e2, e3, e4, e5, e6] <;> generalize ((y - 1) ^ 2 : ℝ) ^ a = r <;> field_simp <;> ring

lemma deltaPow_jet {F : ℝ → ℝ → Helm} (h : Jet F x y) (h0 : (F x y).f ≠ 0) (b : ℝ) : Jet (fun x y => deltaPow b (F x y)) x y := by
  refine (h.rpow h0 b).congr_ev ((h.f.continuousAt.eventually_ne h0).mono fun q hq => ?_)
  generalize F q.1 q.2 = G at *
  ext <;> simp only [deltaPow, Helm.lift] <;> field_simp <;> ring

lemma product_jet {F G : ℝ → ℝ → Helm} (h : Jet F x y) (k : Jet G x y) (n : ℝ) : Jet (fun x y => product n y (F x y) (G x y)) x y := by
  refine (((h.times Jet.varD).times k).scale n).congr_fun fun x y => ?_
  ext <;> simp only [product, Helm.times, Helm.scale, Helm.ofD] <;> ring

lemma bigDelta_pos (A E B a : ℝ) (hB : 0 < B) (hy : y ≠ 1) : 0 < (bigDelta B a (theta A E x y) y).f := by
  have h1 : y - 1 ≠ 0 := sub_ne_zero.mpr hy
  have h2 : 0 < ((y - 1) ^ 2 : ℝ) ^ a := Real.rpow_pos_of_pos (by positivity) a
  simp only [bigDelta]
  nlinarith [mul_self_nonneg (theta A E x y).f, mul_pos hB h2]

lemma termD_jet (n a b A B C F E : ℝ) (hE : E ≠ 0) (hB : 0 < B) (hy : y ≠ 1) : Jet (termD n a b A B C F E) x y :=
  product_jet (deltaPow_jet (bigDelta_jet A E B a hE hy) (bigDelta_pos A E B a hB hy).ne' b) (psi_jet C F) n

/-- A loop that adds terms. -/
lemma foldl_jet {ι : Type*} (l : List ι) (T : ι → ℝ → ℝ → Helm) {G : ℝ → ℝ → Helm} (hG : Jet G x y) (h : ∀ i ∈ l, Jet (T i) x y) :
    Jet (fun x y => (l.map fun i => T i x y).foldl add (G x y)) x y := by
  induction l generalizing G with
  | nil => exact hG
  | cons i l ih =>
    exact ih (hG.plus (h i (by simp))) fun j hj => h j (List.mem_cons_of_mem _ hj)

lemma residual_jet (k : Coef) (hx : 0 < x) (hy : 0 < y) (h1 : y ≠ 1) (hE : ∀ j < 2, el k.E j ≠ 0) (hB : ∀ j < 2, 0 < el k.B j) :
    Jet (residual k) x y := by
  have hz : Jet (fun _ _ => zero) x y := Jet.const 0
  have hA := foldl_jet ((List.range 7).map (· + 1)) (fun i x y => termA (el k.n i) (el k.d i) (el k.t i) x y) hz fun i _ => termA_jet _ _ _ hx hy
  have hB' := foldl_jet ((List.range 44).map (· + 8)) (fun i x y => termB (el k.n i) (el k.d i) (el k.t i) (el k.c i) x y) hA
    fun i _ => termB_jet _ _ _ _ hx hy
  have hC := foldl_jet ((List.range 3).map (· + 52)) (fun i x y => termC (el k.n i) (el k.d i) (el k.t i) (el k.alpha (i - 52)) (el k.beta (i - 52))
    (el k.gamma (i - 52)) (el k.epsilon (i - 52)) x y) hB' fun i _ => termC_jet _ _ _ _ _ _ _ hx hy
  have hD := foldl_jet ((List.range 2).map (· + 55)) (fun i x y => termD (el k.n i) (el k.a (i - 55)) (el k.b (i - 55)) (el k.A (i - 55))
    (el k.B (i - 55)) (el k.C (i - 55)) (el k.F (i - 55)) (el k.E (i - 55)) x y) hC fun i hi => by
      have hi' : i - 55 < 2 := by
        simp only [List.mem_map, List.mem_range] at hi
        obtain ⟨m, hm, rfl⟩ := hi
        omega
      exact termD_jet _ _ _ _ _ _ _ _ (hE _ hi') (hB _ hi') h1
  refine hD.congr_fun fun x y => ?_
  simp only [residual, sum, List.foldl_append]

end WP

end ThermoFun

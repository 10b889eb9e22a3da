import Verif.Lemmas.WagnerPruss
import Verif.Model.HGK
import Mathlib.Analysis.Calculus.Deriv.ZPow

/-! The parts of the Haar–Gallagher–Kell equation, with corrected mixed derivatives, are functions with their partial derivatives. -/

namespace ThermoFun

lemma hasDerivAt_zpow0 {x : ℝ} (hx : x ≠ 0) (p : ℤ) : HasDerivAt (fun x : ℝ => x ^ p) (p / x * x ^ p) x := by
  refine (hasDerivAt_zpow p x (Or.inl hx)).congr_deriv ?_
  rw [zpow_sub_one₀ hx]; field_simp

lemma hasDerivAt_zpow1 {x : ℝ} (hx : x ≠ 0) (p : ℤ) : HasDerivAt (fun x : ℝ => p / x * x ^ p) ((p - 1) / x * (p / x * x ^ p)) x := by
  refine (((hasDerivAt_const x (p : ℝ)).fun_div (hasDerivAt_id' x) hx).mul (hasDerivAt_zpow0 hx p)).congr_deriv ?_
  field_simp; ring

lemma hasDerivAt_zpow2 {x : ℝ} (hx : x ≠ 0) (p : ℤ) :
    HasDerivAt (fun x : ℝ => (p - 1) / x * (p / x * x ^ p)) ((p - 2) / x * ((p - 1) / x * (p / x * x ^ p))) x := by
  refine (((hasDerivAt_const x ((p : ℝ) - 1)).fun_div (hasDerivAt_id' x) hx).mul (hasDerivAt_zpow1 hx p)).congr_deriv ?_
  field_simp; ring

/-- An integer power of the first variable. -/
lemma Jet.zpowT {x y : ℝ} (hx : x ≠ 0) (p : ℤ) :
    Jet (fun x _ => .ofT (x ^ p) (p / x * x ^ p) ((p - 1) / x * (p / x * x ^ p)) ((p - 2) / x * ((p - 1) / x * (p / x * x ^ p)))) x y :=
  .ofT (hasDerivAt_zpow0 hx p) (hasDerivAt_zpow1 hx p) (hasDerivAt_zpow2 hx p)

/-- An integer power. -/
lemma Jet.zpow {F : ℝ → ℝ → Helm} {x y : ℝ} (h : Jet F x y) (h0 : (F x y).f ≠ 0) (p : ℤ) :
    Jet (fun x y => (F x y).lift ((F x y).f ^ p) (p / (F x y).f * (F x y).f ^ p) ((p - 1) / (F x y).f * (p / (F x y).f * (F x y).f ^ p))
      ((p - 2) / (F x y).f * ((p - 1) / (F x y).f * (p / (F x y).f * (F x y).f ^ p)))) x y :=
  h.lift (a := fun u => u ^ p) (b := fun u => p / u * u ^ p) (c := fun u => (p - 1) / u * (p / u * u ^ p))
    (d := fun u => (p - 2) / u * ((p - 1) / u * (p / u * u ^ p))) (hasDerivAt_zpow0 h0 p) (hasDerivAt_zpow1 h0 p) (hasDerivAt_zpow2 h0 p)

namespace HGK

open WP (add el)

variable {x y : ℝ}

/-- Near a state with t > 0 and d > 0 these hold. -/
lemma eventually_pos (hx : 0 < x) (hy : 0 < y) : ∀ᶠ q : ℝ × ℝ in nhds (x, y), 0 < q.1 ∧ 0 < q.2 := by
  have c1 : ContinuousAt (fun q : ℝ × ℝ => q.1) (x, y) := continuousAt_fst
  have c2 : ContinuousAt (fun q : ℝ × ℝ => q.2) (x, y) := continuousAt_snd
  exact (c1.eventually_const_lt hx).and (c2.eventually_const_lt hy)

/-- A loop that adds terms to a record. -/
lemma foldl_jet' {ι : Type*} (l : List ι) (S : ι → ℝ → ℝ → Helm → Helm) (T : ι → ℝ → ℝ → Helm) (hS : ∀ i x y s, S i x y s = s.plus (T i x y))
    {G : ℝ → ℝ → Helm} (hG : Jet G x y) (h : ∀ i ∈ l, Jet (T i) x y) : Jet (fun x y => l.foldl (fun s i => S i x y s) (G x y)) x y := by
  induction l generalizing G with
  | nil => exact hG
  | cons i l ih =>
    have hG' : Jet (fun x y => S i x y (G x y)) x y := (hG.plus (h i (by simp))).congr_fun fun x y => hS i x y _
    exact ih hG' fun j hj => h j (List.mem_cons_of_mem _ hj)

lemma part0_jet (hx : 0 < x) : Jet (fun t _ => part0 t) x y := by
  obtain ⟨m1, m2, m3⟩ := WP.jet_log hx.ne'
  have hl : Jet (fun x _ => Helm.ofT (Real.log x) (1 / x) (-1 / x ^ 2) (2 / x ^ 3)) x y := .ofT m1 m2 m3
  have h0 : Jet (fun t _ => ({
    f := (el A0 0 + el A0 1 * t) * Real.log t
    fT := el A0 0 / t + el A0 1 * (Real.log t + 1)
    fTT := -el A0 0 / (t * t) + el A0 1 / t
    fTTT := 2 * el A0 0 / (t * t * t) - el A0 1 / (t * t)
    fD := 0, fTD := 0, fDD := 0, fTTD := 0, fTDD := 0, fDDD := 0 } : Helm)) x y := by
    have c1 : ContinuousAt (fun q : ℝ × ℝ => q.1) (x, y) := continuousAt_fst
    refine (((Jet.const (el A0 0)).plus (Jet.varT.scale (el A0 1))).times hl).congr_ev ((c1.eventually_ne hx.ne').mono fun q hq => ?_)
    obtain ⟨t, d⟩ := q
    have h1 : t ≠ 0 := hq
    ext <;> simp only [Helm.times, Helm.plus, Helm.scale, Helm.ofT, Helm.const] <;> field_simp <;> ring
  refine foldl_jet' _ (fun i t _ s =>
    let aux := el A0 i * t ^ ((i : ℤ) - 4)
    { s with
      f := s.f + aux
      fT := s.fT + aux * ((i : ℝ) - 4) / t
      fTT := s.fTT + aux * ((i : ℝ) - 4) * ((i : ℝ) - 5) / (t * t)
      fTTT := s.fTTT + aux * ((i : ℝ) - 4) * ((i : ℝ) - 5) * ((i : ℝ) - 6) / (t * t * t) }) (fun i t _ =>
        (Helm.ofT (t ^ ((i : ℤ) - 4)) (((i : ℤ) - 4 : ℤ) / t * t ^ ((i : ℤ) - 4)) ((((i : ℤ) - 4 : ℤ) - 1) / t * (((i : ℤ) - 4 : ℤ) / t * t ^ ((i : ℤ) - 4)))
          ((((i : ℤ) - 4 : ℤ) - 2) / t * ((((i : ℤ) - 4 : ℤ) - 1) / t * (((i : ℤ) - 4 : ℤ) / t * t ^ ((i : ℤ) - 4))))).scale (el A0 i)) ?_ h0
      fun i _ => (Jet.zpowT hx.ne' _).scale _
  intro i t _ s
  ext <;> simp only [Helm.plus, Helm.scale, Helm.ofT] <;> push_cast <;> ring

/-- `y`. -/
lemma yy_jet (hx : 0 < x) (hy : 0 < y) : Jet yy x y := by
  obtain ⟨m1, m2, m3⟩ := WP.jet_log hx.ne'
  have hl : Jet (fun x _ => Helm.ofT (Real.log x) (1 / x) (-1 / x ^ 2) (2 / x ^ 3)) x y := .ofT m1 m2 m3
  refine (Jet.varD.times ((((Jet.const (el yc 0)).plus (hl.scale (el yc 1))).plus ((Jet.zpowT hx.ne' (-3)).scale (el yc 2))).plus
    ((Jet.zpowT hx.ne' (-5)).scale (el yc 3)))).congr_ev ((eventually_pos hx hy).mono fun q hq => ?_)
  obtain ⟨t, d⟩ := q
  have h1 : t ≠ 0 := hq.1.ne'
  have h2 : d ≠ 0 := hq.2.ne'
  ext <;> simp only [yy, Helm.times, Helm.plus, Helm.scale, Helm.ofT, Helm.ofD, Helm.const] <;> generalize t ^ (-3 : ℤ) = a <;>
    generalize t ^ (-5 : ℤ) = b <;> push_cast <;> field_simp <;> ring

/-- `x` with the right mixed derivative. -/
noncomputable def xxFix (y : Helm) : Helm :=
  { xx y with fTDD := y.fTDD * (xx y).f ^ 2 + 2 * (y.fTD * (xx y).fD + y.fDD * (xx y).fT) * (xx y).f +
    2 * y.fD * ((xx y).fTD * (xx y).f + (xx y).fD * (xx y).fT) }

lemma xx_jet {F : ℝ → ℝ → Helm} (h : Jet F x y) (h1 : (F x y).f ≠ 1) : Jet (fun x y => xxFix (F x y)) x y := by
  have e : ∀ u : ℝ, u ≠ 1 → HasDerivAt (fun u : ℝ => 1 / (1 - u)) (1 / (1 - u) ^ 2) u ∧ HasDerivAt (fun u : ℝ => 1 / (1 - u) ^ 2) (2 / (1 - u) ^ 3) u ∧
      HasDerivAt (fun u : ℝ => 2 / (1 - u) ^ 3) (6 / (1 - u) ^ 4) u := by
    intro u hu
    have h0 : 1 - u ≠ 0 := fun h => hu (by linarith)
    have hd : HasDerivAt (fun u : ℝ => 1 - u) (-1) u := by simpa using (hasDerivAt_id' u).const_sub 1
    refine ⟨?_, ?_, ?_⟩
    · refine ((hasDerivAt_const u (1 : ℝ)).fun_div hd h0).congr_deriv ?_
      ring
    · refine ((hasDerivAt_const u (1 : ℝ)).fun_div (hd.fun_pow 2) (pow_ne_zero 2 h0)).congr_deriv ?_
      simp only [Nat.cast_ofNat, Nat.add_one_sub_one, pow_one]
      field_simp; ring
    · refine ((hasDerivAt_const u (2 : ℝ)).fun_div (hd.fun_pow 3) (pow_ne_zero 3 h0)).congr_deriv ?_
      simp only [Nat.cast_ofNat, Nat.add_one_sub_one]
      field_simp; ring
  obtain ⟨e1, e2, e3⟩ := e _ h1
  refine (h.lift (a := fun u => 1 / (1 - u)) (b := fun u => 1 / (1 - u) ^ 2) (c := fun u => 2 / (1 - u) ^ 3) (d := fun u => 6 / (1 - u) ^ 4) e1 e2 e3).congr_ev
    ((h.f.continuousAt.eventually_ne h1).mono fun q hq => ?_)
  generalize F q.1 q.2 = G at *
  have h0 : 1 - G.f ≠ 0 := fun h => hq (by linarith)
  ext <;> simp only [xxFix, xx, Helm.lift] <;> field_simp <;> ring

lemma uu_jet {F : ℝ → ℝ → Helm} (h : Jet F x y) (h0 : 0 < (F x y).f) (hy : 0 < y) : Jet (fun x y => uu (F x y) y) x y := by
  obtain ⟨m1, m2, m3⟩ := WP.jet_log hy.ne'
  obtain ⟨l1, l2, l3⟩ := WP.jet_log h0.ne'
  have hd : Jet (fun _ y => Helm.ofD (Real.log y) (1 / y) (-1 / y ^ 2) (2 / y ^ 3)) x y := .ofD m1 m2 m3
  have c2 : ContinuousAt (fun q : ℝ × ℝ => q.2) (x, y) := continuousAt_snd
  refine (hd.plus (h.lift (a := Real.log) (b := fun u => 1 / u) (c := fun u => -1 / u ^ 2) (d := fun u => 2 / u ^ 3) l1 l2 l3)).congr_ev
    (((h.f.continuousAt.eventually_const_lt h0).and (c2.eventually_const_lt hy)).mono fun q hq => ?_)
  obtain ⟨t, d⟩ := q
  dsimp only at hq ⊢
  generalize F t d = G at *
  have h1 : G.f ≠ 0 := hq.1.ne'
  have h2 : d ≠ 0 := hq.2.ne'
  ext <;> simp only [uu, Helm.lift, Helm.plus, Helm.ofD]
  · rw [Real.log_mul h2 h1]
  all_goals field_simp
  all_goals ring

/-- The result of the second part with the right third derivative by t. -/
noncomputable def final2Fix (t : ℝ) (y x u : Helm) : Helm :=
  { final2 t y x u with fTTT := (final2 t y x u).fTTT + 3 * (final2 t y x u).f / (t * t) / t }

lemma final2_jet {Y X U : ℝ → ℝ → Helm} (hY : Jet Y x y) (hX : Jet X x y) (hU : Jet U x y) (hx : 0 < x) :
    Jet (fun x y => final2Fix x (Y x y) (X x y) (U x y)) x y := by
  have c1 : ContinuousAt (fun q : ℝ × ℝ => q.1) (x, y) := continuousAt_fst
  refine ((Jet.varT.scale A20).times (((hU.plus (hX.scale (-130 / 3))).plus ((hX.times hX).scale (169 / 6))).plus (hY.scale (-14)))).congr_ev
    ((c1.eventually_ne hx.ne').mono fun q hq => ?_)
  obtain ⟨t, d⟩ := q
  dsimp only at hq ⊢
  generalize Y t d = Y at *
  generalize X t d = X at *
  generalize U t d = U at *
  ext <;> simp only [final2Fix, final2, Helm.times, Helm.plus, Helm.scale, Helm.ofT] <;> field_simp <;> ring

lemma term3_jet (A : ℝ) (l k : ℤ) (hA : A ≠ 0) (hx : 0 < x) (hy : 0 < y) : Jet (term3 A l k) x y := by
  have hz : Jet (fun _ y => Helm.ofD (1 - Real.exp (-z0 * y)) (z0 * Real.exp (-z0 * y)) (-z0 * (z0 * Real.exp (-z0 * y)))
      (-z0 * (-z0 * (z0 * Real.exp (-z0 * y))))) x y := by
    have he : HasDerivAt (fun y => Real.exp (-z0 * y)) (-z0 * Real.exp (-z0 * y)) y := by
      have := ((hasDerivAt_id' y).const_mul (-z0)).exp
      exact this.congr_deriv (by ring)
    exact .ofD ((he.const_sub 1).congr_deriv (by ring)) ((he.const_mul z0).congr_deriv (by ring)) (((he.const_mul z0).const_mul (-z0)).congr_deriv (by ring))
  have hz0 : 0 < z0 := by norm_num [z0]
  have zp : ∀ d : ℝ, 0 < d → 1 - Real.exp (-z0 * d) ≠ 0 := fun d hd => by
    have : Real.exp (-z0 * d) < 1 := Real.exp_lt_one_iff.mpr (by nlinarith)
    linarith
  refine (((Jet.zpowT hx.ne' (-l)).times (hz.zpow (zp y hy) k)).scale A).congr_ev ((eventually_pos hx hy).mono fun q hq => ?_)
  obtain ⟨t, d⟩ := q
  have h1 : t ≠ 0 := hq.1.ne'
  have h2 := zp d hq.2
  have h3 : Real.exp (-z0 * d) ≠ 0 := (Real.exp_pos _).ne'
  have h4 : t ^ (-l) ≠ 0 := zpow_ne_zero _ h1
  have h5 : (1 - Real.exp (-z0 * d)) ^ k ≠ 0 := zpow_ne_zero _ h2
  have h6 : 1 - (1 - Real.exp (-z0 * d)) = Real.exp (-z0 * d) := by ring
  have h7 : z0 ≠ 0 := hz0.ne'
  ext <;> simp only [term3, Helm.times, Helm.scale, Helm.ofT, Helm.ofD, Helm.lift, h6] <;>
    generalize (1 - Real.exp (-z0 * d)) ^ k = b at * <;> generalize t ^ (-l) = a at * <;>
    generalize 1 - Real.exp (-z0 * d) = z at * <;> generalize Real.exp (-z0 * d) = e at * <;> push_cast <;> field_simp <;> ring

/-- A term of the fourth part with the right mixed derivative. -/
noncomputable def term4Fix (A alpha beta r ti : ℝ) (m n : ℤ) (t d : ℝ) : Helm :=
  let s := term4 A alpha beta r ti m n t d
  let delta := (d - r) / r
  let psi := (n - alpha * m * delta ^ m) * (1 / r) / delta
  let psi_r := -(n + alpha * m * (m - 1) * delta ^ m) * (1 / r / delta) ^ 2
  { s with fTDD := psi_r * s.fT + psi * s.fTD }

lemma term4_jet (A alpha beta r ti : ℝ) (m n : ℤ) (hr : r ≠ 0) (hti : ti ≠ 0) (hy : y ≠ r) : Jet (term4Fix A alpha beta r ti m n) x y := by
  have hd : Jet (fun _ y => Helm.ofD ((y - r) / r) (1 / r) 0 0) x y :=
    .ofD (((hasDerivAt_id' y).sub_const r).div_const r) (hasDerivAt_const y _) (hasDerivAt_const y _)
  have ht : Jet (fun x _ => Helm.ofT ((x - ti) / ti) (1 / ti) 0 0) x y :=
    .ofT (((hasDerivAt_id' x).sub_const ti).div_const ti) (hasDerivAt_const x _) (hasDerivAt_const x _)
  have h0 : (y - r) / r ≠ 0 := div_ne_zero (sub_ne_zero.mpr hy) hr
  have hm := hd.zpow h0 m
  have hn := hd.zpow h0 n
  have he := ((hm.scale (-alpha)).plus ((ht.times ht).scale (-beta))).exp
  have c2 : ContinuousAt (fun q : ℝ × ℝ => q.2) (x, y) := continuousAt_snd
  refine ((hn.times he).scale A).congr_ev ((c2.eventually_ne hy).mono fun q hq => ?_)
  obtain ⟨t, d⟩ := q
  have h1 : d - r ≠ 0 := sub_ne_zero.mpr hq
  have h2 : (d - r) / r ≠ 0 := div_ne_zero h1 hr
  have e1 : -alpha * ((d - r) / r) ^ m + -beta * ((t - ti) / ti * ((t - ti) / ti)) = -alpha * ((d - r) / r) ^ m - beta * ((t - ti) / ti) * ((t - ti) / ti) := by ring
  ext <;> simp only [term4Fix, term4, Helm.times, Helm.scale, Helm.plus, Helm.ofT, Helm.ofD, Helm.lift, e1] <;>
    generalize Real.exp (-alpha * ((d - r) / r) ^ m - beta * ((t - ti) / ti) * ((t - ti) / ti)) = e at * <;>
    generalize ((d - r) / r) ^ m = a at * <;> generalize ((d - r) / r) ^ n = b at * <;> generalize (d - r) / r = c at * <;>
    generalize (t - ti) / ti = g at * <;> field_simp <;> ring

lemma part1_jet (hx : 0 < x) (hy : 0 < y) : Jet part1 x y := by
  have h := fun i : ℕ => (Jet.zpowT (y := y) hx.ne' (1 - (i : ℤ))).scale (el A1 i)
  refine (Jet.varD.times (((((h 0).plus (h 1)).plus (h 2)).plus (h 3)).plus (h 4))).congr_ev ((eventually_pos hx hy).mono fun q hq => ?_)
  obtain ⟨t, d⟩ := q
  have h1 : t ≠ 0 := hq.1.ne'
  have h2 : d ≠ 0 := hq.2.ne'
  have hl : List.range 5 = [0, 1, 2, 3, 4] := by decide
  ext <;> simp only [part1, part1Loop, hl, List.foldl_cons, List.foldl_nil, WP.zero, Helm.times, Helm.plus, Helm.scale, Helm.ofT, Helm.ofD] <;>
    generalize t ^ (1 - ((0 : ℕ) : ℤ)) = a0 <;> generalize t ^ (1 - ((1 : ℕ) : ℤ)) = a1 <;> generalize t ^ (1 - ((2 : ℕ) : ℤ)) = a2 <;>
    generalize t ^ (1 - ((3 : ℕ) : ℤ)) = a3 <;> generalize t ^ (1 - ((4 : ℕ) : ℤ)) = a4 <;> push_cast <;> field_simp <;> ring

/-- The second part with the right derivatives. -/
noncomputable def part2Fix (t d : ℝ) : Helm := final2Fix t (yy t d) (xxFix (yy t d)) (uu (xxFix (yy t d)) d)

lemma part2_jet (hx : 0 < x) (hy : 0 < y) (h1 : (yy x y).f < 1) : Jet part2Fix x y := by
  have hY := yy_jet hx hy
  have hX := xx_jet hY h1.ne
  have hX0 : 0 < (xxFix (yy x y)).f := by
    show 0 < 1 / (1 - (yy x y).f)
    exact one_div_pos.mpr (by linarith)
  exact final2_jet hY hX (uu_jet hX hX0 hy) hx

lemma A3_ne : ∀ i < 36, el A3 i ≠ 0 := by
  have h : ∀ i < 36, A3.getD i 0 ≠ 0 := by decide +kernel
  exact fun i hi => by unfold el; exact_mod_cast h i hi

lemma part3_jet (hx : 0 < x) (hy : 0 < y) : Jet part3 x y :=
  WP.foldl_jet (List.range 36) (fun i t d => term3 (el A3 i) (eli li i) (eli ki i) t d) (Jet.const 0) fun i hi =>
    term3_jet _ _ _ (A3_ne i (List.mem_range.mp hi)) hx hy

lemma ri_ne : ∀ i < 4, el ri i ≠ 0 ∧ el ti i ≠ 0 := by
  have h : ∀ i < 4, ri.getD i 0 ≠ 0 ∧ ti.getD i 0 ≠ 0 := by decide +kernel
  exact fun i hi => by unfold el; exact_mod_cast h i hi

/-- The fourth part with the right derivatives. -/
noncomputable def part4Fix (t d : ℝ) : Helm :=
  ((List.range 4).map fun i => term4Fix (el A4 i) (el alpha i) (el beta i) (el ri i) (el ti i) (eli mi i) (eli ni i) t d).foldl add WP.zero

lemma part4_jet (h : ∀ i < 4, y ≠ el ri i) : Jet part4Fix x y :=
  WP.foldl_jet (List.range 4) (fun i t d => term4Fix (el A4 i) (el alpha i) (el beta i) (el ri i) (el ti i) (eli mi i) (eli ni i) t d) (Jet.const 0)
    fun i hi => term4_jet _ _ _ _ _ _ _ (ri_ne i (List.mem_range.mp hi)).1 (ri_ne i (List.mem_range.mp hi)).2 (h i (List.mem_range.mp hi))

/-- The reduced function with the right derivatives. -/
noncomputable def reducedFix (t d : ℝ) : Helm := add (add (add (add (part0 t) (part1 t d)) (part2Fix t d)) (part3 t d)) (part4Fix t d)

lemma reduced_jet (hx : 0 < x) (hy : 0 < y) (h1 : (yy x y).f < 1) (h : ∀ i < 4, y ≠ el ri i) : Jet reducedFix x y :=
  ((((part0_jet hx).plus (part1_jet hx hy)).plus (part2_jet hx hy h1)).plus (part3_jet hx hy)).plus (part4_jet h)

/-- The Helmholtz function with the right derivatives. -/
noncomputable def helmholtzFix (T D : ℝ) : Helm := dimensioned (reducedFix (T / 647.27) (D / 317.763))

lemma helmholtz_jet {T D : ℝ} (hT : 0 < T) (hD : 0 < D) (h1 : (yy (T / 647.27) (D / 317.763)).f < 1) (h : ∀ i < 4, D / 317.763 ≠ el ri i) :
    Jet helmholtzFix T D := by
  have hj := reduced_jet (x := T / 647.27) (y := D / 317.763) (by positivity) (by positivity) h1 h
  have u1 : HasDerivAt (fun T : ℝ => T / 647.27) (1 / 647.27) T := (hasDerivAt_id' T).div_const _
  have v1 : HasDerivAt (fun D : ℝ => D / 317.763) (1 / 317.763) D := (hasDerivAt_id' D).div_const _
  have hch := Jet.change (u := fun T : ℝ => T / 647.27) (u1 := fun _ => 1 / 647.27) (u2 := fun _ => 0) (u3 := fun _ => 0)
    (v := fun D => D / 317.763) hj u1 (hasDerivAt_const T _) (hasDerivAt_const T _) v1
  refine (hch.scale 69595.89).congr_fun fun T D => ?_
  ext <;> simp only [helmholtzFix, dimensioned, Helm.scale] <;> ring

/-- Equal up to two of the third derivatives. -/
structure Agree (p q : Helm) : Prop where
  f : p.f = q.f
  fT : p.fT = q.fT
  fD : p.fD = q.fD
  fTT : p.fTT = q.fTT
  fTD : p.fTD = q.fTD
  fDD : p.fDD = q.fDD
  fTTD : p.fTTD = q.fTTD
  fDDD : p.fDDD = q.fDDD

lemma Agree.refl (p : Helm) : Agree p p := ⟨rfl, rfl, rfl, rfl, rfl, rfl, rfl, rfl⟩

lemma Agree.add {p q p' q' : Helm} (h : Agree p q) (h' : Agree p' q') : Agree (add p p') (add q q') := by
  constructor <;> simp only [WP.add, h.f, h.fT, h.fD, h.fTT, h.fTD, h.fDD, h.fTTD, h.fDDD, h'.f, h'.fT, h'.fD, h'.fTT, h'.fTD, h'.fDD, h'.fTTD, h'.fDDD]

lemma Agree.foldl {ι : Type*} (l : List ι) (S T : ι → Helm) (h : ∀ i, Agree (S i) (T i)) {p q : Helm} (hp : Agree p q) :
    Agree ((l.map S).foldl WP.add p) ((l.map T).foldl WP.add q) := by
  induction l generalizing p q with
  | nil => exact hp
  | cons i l ih => exact ih (hp.add (h i))

lemma agree4 (t d : ℝ) : Agree (part4 t d) (part4Fix t d) :=
  Agree.foldl (List.range 4) (fun i => term4 (el A4 i) (el alpha i) (el beta i) (el ri i) (el ti i) (eli mi i) (eli ni i) t d)
    (fun i => term4Fix (el A4 i) (el alpha i) (el beta i) (el ri i) (el ti i) (eli mi i) (eli ni i) t d)
    (fun _ => ⟨rfl, rfl, rfl, rfl, rfl, rfl, rfl, rfl⟩) (.refl _)

lemma agree2 (t d : ℝ) : Agree (part2 t d) (part2Fix t d) := ⟨rfl, rfl, rfl, rfl, rfl, rfl, rfl, rfl⟩

lemma agree_reduced (t d : ℝ) : Agree (reduced t d) (reducedFix t d) :=
  (((Agree.refl _).add (agree2 t d)).add (.refl _)).add (agree4 t d)

lemma agree (T D : ℝ) : Agree (helmholtz T D) (helmholtzFix T D) := by
  have h := agree_reduced (T / 647.27) (D / 317.763)
  constructor <;> simp only [helmholtz, helmholtzFix, dimensioned, h.f, h.fT, h.fD, h.fTT, h.fTD, h.fDD, h.fTTD, h.fDDD]

end HGK

end ThermoFun

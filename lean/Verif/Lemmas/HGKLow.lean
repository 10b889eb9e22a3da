import Verif.Lemmas.HGKState
import Verif.Lemmas.WagnerPrussLow

/-! The Haar–Gallagher–Kell equation at low density. -/

namespace ThermoFun

namespace HGK

open WP (add el tendsto_id0 tendsto_mul0 tendsto_const0)
open Filter Topology

/-- Limits at low density, at a given temperature. -/
structure Lim (F : ℝ → Helm) (a b c : ℝ) : Prop where
  fD : Tendsto (fun y => y * (F y).fD) (𝓝[>] 0) (𝓝 a)
  fDD : Tendsto (fun y => y ^ 2 * (F y).fDD) (𝓝[>] 0) (𝓝 b)
  fTD : Tendsto (fun y => y * (F y).fTD) (𝓝[>] 0) (𝓝 c)

lemma Lim.add {F G : ℝ → Helm} {a b c a' b' c' : ℝ} (h : Lim F a b c) (k : Lim G a' b' c') :
    Lim (fun y => WP.add (F y) (G y)) (a + a') (b + b') (c + c') := by
  refine ⟨?_, ?_, ?_⟩
  · simpa [WP.add, mul_add] using h.fD.add k.fD
  · simpa [WP.add, mul_add] using h.fDD.add k.fDD
  · simpa [WP.add, mul_add] using h.fTD.add k.fTD

lemma foldl_lim {ι : Type*} (l : List ι) (T : ι → ℝ → Helm) {G : ℝ → Helm} {a b c : ℝ} (hG : Lim G a b c) (h : ∀ i ∈ l, Lim (T i) 0 0 0) :
    Lim (fun y => (l.map fun i => T i y).foldl WP.add (G y)) a b c := by
  induction l generalizing G with
  | nil => exact hG
  | cons i l ih =>
    have := hG.add (h i (by simp))
    simp only [add_zero] at this
    exact ih this fun j hj => h j (List.mem_cons_of_mem _ hj)

/-- Records with continuous derivatives. -/
lemma Lim.of_cont {F : ℝ → Helm} (u v w : ℝ → ℝ) (hu : ContinuousAt u 0) (hv : ContinuousAt v 0) (hw : ContinuousAt w 0)
    (h : ∀ y, 0 < y → (F y).fD = u y ∧ (F y).fDD = v y ∧ (F y).fTD = w y) : Lim F 0 0 0 := by
  have k : ∀ {u : ℝ → ℝ}, ContinuousAt u 0 → Tendsto u (𝓝[>] 0) (𝓝 (u 0)) := fun hu => hu.tendsto.mono_left nhdsWithin_le_nhds
  have h2 : Tendsto (fun y : ℝ => y ^ 2) (𝓝[>] 0) (𝓝 0) := by simpa using tendsto_id0.pow 2
  refine ⟨?_, ?_, ?_⟩
  · exact tendsto_mul0 (k hu) tendsto_id0 fun y hy => by rw [(h y hy).1]; ring
  · exact tendsto_mul0 (k hv) h2 fun y hy => by rw [(h y hy).2.1]; ring
  · exact tendsto_mul0 (k hw) tendsto_id0 fun y hy => by rw [(h y hy).2.2]; ring

lemma part0_lim (t : ℝ) : Lim (fun _ => part0 t) 0 0 0 :=
  Lim.of_cont (fun _ => 0) (fun _ => 0) (fun _ => 0) continuousAt_const continuousAt_const continuousAt_const fun _ _ => ⟨rfl, rfl, rfl⟩

lemma part1_lim (t : ℝ) : Lim (fun d => part1 t d) 0 0 0 := by
  have hl : List.range 5 = [0, 1, 2, 3, 4] := by decide
  refine Lim.of_cont (fun _ => (part1 t 1).fD) (fun _ => 0) (fun _ => (part1 t 1).fTD) continuousAt_const continuousAt_const continuousAt_const
    fun d hd => ⟨?_, ?_, ?_⟩ <;> simp only [part1, part1Loop, hl, List.foldl_cons, List.foldl_nil, WP.zero] <;>
    generalize t ^ (1 - ((0 : ℕ) : ℤ)) = p0 <;> generalize t ^ (1 - ((1 : ℕ) : ℤ)) = p1 <;> generalize t ^ (1 - ((2 : ℕ) : ℤ)) = p2 <;>
    generalize t ^ (1 - ((3 : ℕ) : ℤ)) = p3 <;> generalize t ^ (1 - ((4 : ℕ) : ℤ)) = p4
  · field_simp
    ring
  · rcases eq_or_ne t 0 with rfl | ht
    · simp
    · field_simp
      ring

lemma term3_lim (A : ℝ) (l : ℤ) (k : ℕ) (hA : A ≠ 0) {t : ℝ} (ht : 0 < t) : Lim (fun d => term3 A l (k + 1 : ℕ) t d) 0 0 0 := by
  have hz : z0 ≠ 0 := by norm_num [z0]
  have hz' : 0 < z0 := by norm_num [z0]
  refine Lim.of_cont (fun d => (k + 1) * (z0 * Real.exp (-z0 * d)) * (A * t ^ (-l)) * (1 - Real.exp (-z0 * d)) ^ k)
    (fun d => (k + 1) * (z0 * Real.exp (-z0 * d)) * (A * t ^ (-l)) *
      (-z0 * (1 - Real.exp (-z0 * d)) ^ k + k * (1 - Real.exp (-z0 * d)) ^ (k - 1) * (z0 * Real.exp (-z0 * d))))
    (fun d => -l / t * ((k + 1) * (z0 * Real.exp (-z0 * d)) * (A * t ^ (-l)) * (1 - Real.exp (-z0 * d)) ^ k))
    (by fun_prop) (by fun_prop) (by fun_prop) fun d hd => ?_
  have he : Real.exp (-z0 * d) < 1 := Real.exp_lt_one_iff.mpr (by nlinarith)
  have hz1 : 1 - Real.exp (-z0 * d) ≠ 0 := by linarith
  have he0 : Real.exp (-z0 * d) ≠ 0 := (Real.exp_pos _).ne'
  have htl : t ^ (-l) ≠ 0 := zpow_ne_zero _ ht.ne'
  have e1 : 1 - (1 - Real.exp (-z0 * d)) = Real.exp (-z0 * d) := by ring
  simp only [term3, zpow_natCast, Int.cast_natCast, e1]
  generalize Real.exp (-z0 * d) = e at *
  generalize t ^ (-l) = b at *
  have hk : (1 - e) ^ (k + 1) ≠ 0 := pow_ne_zero _ hz1
  have hk0 : (1 - e) ^ k ≠ 0 := pow_ne_zero _ hz1
  refine ⟨?_, ?_, ?_⟩
  · push_cast
    rw [pow_succ]
    field_simp
  · push_cast
    rcases k with - | k
    · simp only [Nat.cast_zero, zero_add, pow_one, pow_zero]
      field_simp
      ring
    · rw [Nat.add_sub_cancel, pow_succ, pow_succ]
      rw [pow_succ] at hk0
      have hk1 : (1 - e) ^ k ≠ 0 := pow_ne_zero _ hz1
      generalize (1 - e) ^ k = g at *
      have : ((k : ℝ) + 1 + 1) ≠ 0 := by positivity
      push_cast
      field_simp
      ring
  · push_cast
    rw [pow_succ]
    field_simp

lemma ki_pos : ∀ i < 36, 1 ≤ eli ki i := by decide

lemma part3_lim {t : ℝ} (ht : 0 < t) : Lim (fun d => part3 t d) 0 0 0 := by
  refine foldl_lim (List.range 36) (fun i d => term3 (el A3 i) (eli li i) (eli ki i) t d)
    (Lim.of_cont (fun _ => 0) (fun _ => 0) (fun _ => 0) continuousAt_const continuousAt_const continuousAt_const fun _ _ => ⟨rfl, rfl, rfl⟩)
    fun i hi => ?_
  obtain ⟨k, hk⟩ := Int.eq_ofNat_of_zero_le (sub_nonneg.mpr (ki_pos i (List.mem_range.mp hi)))
  have : eli ki i = ((k + 1 : ℕ) : ℤ) := by push_cast; linarith
  rw [this]
  exact term3_lim _ _ _ (A3_ne i (List.mem_range.mp hi)) ht

lemma term4_lim (A al be r ti : ℝ) (m n : ℕ) (hr : r ≠ 0) (t : ℝ) : Lim (fun d => term4 A al be r ti m n t d) 0 0 0 := by
  have hc : ContinuousAt (fun d : ℝ => (d - r) / r) 0 := by fun_prop
  have h0 : ((0 : ℝ) - r) / r ≠ 0 := by rw [zero_sub, neg_div, div_self hr]; norm_num
  have cp : ContinuousAt (fun d : ℝ => ((n : ℝ) - al * m * ((d - r) / r) ^ m) * (1 / r) / ((d - r) / r)) 0 := ContinuousAt.div (by fun_prop) hc h0
  have cr : ContinuousAt (fun d : ℝ => -((n : ℝ) + al * m * (m - 1) * ((d - r) / r) ^ m) * (1 / r / ((d - r) / r)) ^ 2) 0 :=
    ContinuousAt.mul (by fun_prop) ((continuousAt_const.div hc h0).pow 2)
  have ct : ContinuousAt (fun d : ℝ => A * ((d - r) / r) ^ n * Real.exp (-al * ((d - r) / r) ^ m - be * ((t - ti) / ti) * ((t - ti) / ti))) 0 := by
    fun_prop
  have c1 := cp.mul ct
  refine Lim.of_cont _ _ _ c1 ((cr.mul ct).add (cp.mul c1)) (c1.const_mul (-2 * be * ((t - ti) / ti) * (1 / ti))) fun d _ => ?_
  simp only [term4, zpow_natCast, Int.cast_natCast]
  exact ⟨rfl, rfl, rfl⟩

lemma mn_nat : ∀ i < 4, ∃ m n : ℕ, eli mi i = m ∧ eli ni i = n := by
  intro i hi
  interval_cases i
  · exact ⟨2, 0, rfl, rfl⟩
  · exact ⟨2, 2, rfl, rfl⟩
  · exact ⟨2, 0, rfl, rfl⟩
  · exact ⟨4, 0, rfl, rfl⟩

lemma part4_lim (t : ℝ) : Lim (fun d => part4 t d) 0 0 0 := by
  refine foldl_lim (List.range 4) (fun i d => term4 (el A4 i) (el alpha i) (el beta i) (el ri i) (el ti i) (eli mi i) (eli ni i) t d)
    (Lim.of_cont (fun _ => 0) (fun _ => 0) (fun _ => 0) continuousAt_const continuousAt_const continuousAt_const fun _ _ => ⟨rfl, rfl, rfl⟩)
    fun i hi => ?_
  obtain ⟨m, n, hm, hn⟩ := mn_nat i (List.mem_range.mp hi)
  rw [hm, hn]
  exact term4_lim _ _ _ _ _ _ _ (ri_ne i (List.mem_range.mp hi)).1 _

/-- Part 2 holds the ideal gas. -/
lemma part2_lim {t : ℝ} (ht : 0 < t) : Lim (fun d => part2 t d) (A20 * t) (-(A20 * t)) A20 := by
  obtain ⟨p, hp⟩ : ∃ p, p = el yc 0 + el yc 1 * Real.log t + el yc 2 * t ^ (-3 : ℤ) + el yc 3 * t ^ (-5 : ℤ) := ⟨_, rfl⟩
  obtain ⟨q, hq⟩ : ∃ q, q = (el yc 1 - 3 * el yc 2 * t ^ (-3 : ℤ) - 5 * el yc 3 * t ^ (-5 : ℤ)) / t := ⟨_, rfl⟩
  have hy : ∀ d, 0 < d → (yy t d).f = d * p ∧ (yy t d).fD = p ∧ (yy t d).fT = d * q ∧ (yy t d).fDD = 0 ∧ (yy t d).fTD = q := by
    intro d hd
    refine ⟨?_, ?_, ?_, rfl, ?_⟩ <;> simp only [yy, hp, hq] <;> generalize t ^ (-3 : ℤ) = a <;> generalize t ^ (-5 : ℤ) = b <;>
      field_simp
  have i0 := tendsto_id0
  have hx : Tendsto (fun d : ℝ => 1 / (1 - d * p)) (𝓝[>] 0) (𝓝 1) := by
    have := (tendsto_const0 1).div ((tendsto_const0 1).sub (i0.mul_const p)) (by norm_num)
    rw [zero_mul, sub_zero, div_one] at this
    exact this
  have hev : ∀ᶠ d : ℝ in 𝓝[>] 0, 0 < d ∧ 1 - d * p ≠ 0 := by
    have h1 : Tendsto (fun d : ℝ => 1 - d * p) (𝓝[>] 0) (𝓝 1) := by simpa using (tendsto_const0 1).sub (i0.mul_const p)
    filter_upwards [self_mem_nhdsWithin, h1.eventually_ne one_ne_zero] with d h k using ⟨h, k⟩
  refine ⟨?_, ?_, ?_⟩
  · have : Tendsto (fun d : ℝ => A20 * t * (1 + d * (p * (1 / (1 - d * p)) - 130 / 3 * (p * (1 / (1 - d * p)) ^ 2) +
        169 / 3 * (p * (1 / (1 - d * p)) ^ 3) - 14 * p))) (𝓝[>] 0) (𝓝 (A20 * t * (1 + 0 * (p * 1 - 130 / 3 * (p * 1 ^ 2) + 169 / 3 * (p * 1 ^ 3) - 14 * p)))) :=
      ((i0.mul ((((hx.const_mul p).sub (((hx.pow 2).const_mul p).const_mul _)).add (((hx.pow 3).const_mul p).const_mul _)).sub_const _)).const_add 1).const_mul _
    rw [zero_mul, add_zero, mul_one] at this
    refine this.congr' ?_
    filter_upwards [hev] with d hd
    obtain ⟨e0, e1, e2, e3, e4⟩ := hy d hd.1
    have h1 := hd.1.ne'
    have h2 := hd.2
    simp only [part2, final2, uu, xx, e0, e1, e2, e3, e4]
    field_simp
    ring
  · have : Tendsto (fun d : ℝ => A20 * t * (-1 + d ^ 2 * (p ^ 2 * (1 / (1 - d * p)) ^ 2 - 260 / 3 * (p ^ 2 * (1 / (1 - d * p)) ^ 3) +
        169 * (p ^ 2 * (1 / (1 - d * p)) ^ 4)))) (𝓝[>] 0) (𝓝 (A20 * t * (-1 + 0 ^ 2 * (p ^ 2 * 1 ^ 2 - 260 / 3 * (p ^ 2 * 1 ^ 3) + 169 * (p ^ 2 * 1 ^ 4))))) :=
      (((i0.pow 2).mul ((((hx.pow 2).const_mul _).sub (((hx.pow 3).const_mul _).const_mul _)).add (((hx.pow 4).const_mul _).const_mul _))).const_add (-1)).const_mul _
    rw [zero_pow two_ne_zero, zero_mul, add_zero, mul_neg_one] at this
    refine this.congr' ?_
    filter_upwards [hev] with d hd
    obtain ⟨e0, e1, e2, e3, e4⟩ := hy d hd.1
    have h1 := hd.1.ne'
    have h2 := hd.2
    simp only [part2, final2, uu, xx, e0, e1, e2, e3, e4]
    field_simp
    ring
  · have hfd : Tendsto (fun d : ℝ => A20 * (1 + d * (p * (1 / (1 - d * p)) - 130 / 3 * (p * (1 / (1 - d * p)) ^ 2) +
        169 / 3 * (p * (1 / (1 - d * p)) ^ 3) - 14 * p))) (𝓝[>] 0) (𝓝 (A20 * (1 + 0 * (p * 1 - 130 / 3 * (p * 1 ^ 2) + 169 / 3 * (p * 1 ^ 3) - 14 * p)))) :=
      ((i0.mul ((((hx.const_mul p).sub (((hx.pow 2).const_mul p).const_mul _)).add (((hx.pow 3).const_mul p).const_mul _)).sub_const _)).const_add 1).const_mul _
    have hs : Tendsto (fun d : ℝ => d * (A20 * t * q * (1 / (1 - d * p) ^ 2 - 130 / 3 * (1 / (1 - d * p) ^ 2 + 2 * d * p / (1 - d * p) ^ 3) +
        169 / 3 * (1 / (1 - d * p) ^ 3 + 3 * d * p / (1 - d * p) ^ 4) - 14))) (𝓝[>] 0) (𝓝 0) := by
      have hc : ContinuousAt (fun d : ℝ => A20 * t * q * (1 / (1 - d * p) ^ 2 - 130 / 3 * (1 / (1 - d * p) ^ 2 + 2 * d * p / (1 - d * p) ^ 3) +
        169 / 3 * (1 / (1 - d * p) ^ 3 + 3 * d * p / (1 - d * p) ^ 4) - 14)) 0 := by
        have a2 : ((1 : ℝ) - 0 * p) ^ 2 ≠ 0 := by simp
        have a3 : ((1 : ℝ) - 0 * p) ^ 3 ≠ 0 := by simp
        have a4 : ((1 : ℝ) - 0 * p) ^ 4 ≠ 0 := by simp
        fun_prop (disch := assumption)
      exact tendsto_mul0 (hc.tendsto.mono_left nhdsWithin_le_nhds) i0 fun y _ => by ring
    have := hfd.add hs
    rw [zero_mul, add_zero, add_zero, mul_one] at this
    refine this.congr' ?_
    filter_upwards [hev] with d hd
    obtain ⟨e0, e1, e2, e3, e4⟩ := hy d hd.1
    have h1 := hd.1.ne'
    have h2 := hd.2
    have h3 := ht.ne'
    simp only [part2, final2, uu, xx, e0, e1, e2, e3, e4]
    field_simp
    ring

lemma reduced_lim {t : ℝ} (ht : 0 < t) : Lim (fun d => reduced t d) (A20 * t) (-(A20 * t)) A20 := by
  have := ((((part0_lim t).add (part1_lim t)).add (part2_lim ht)).add (part3_lim ht)).add (part4_lim t)
  simp only [add_zero, zero_add] at this
  exact this

end HGK

end ThermoFun

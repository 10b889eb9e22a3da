import Verif.Lemmas.Double
import Verif.Props.Batch
import Verif.Props.UnitValues

/-!
C150, C151: the range loop and the pressures of batch calculations in the arithmetic of the machine.  The models are those of
C56 and C57 (`Batch.range`, `Batch.calculate`, over any type of numbers), here with numbers of the type `F64`.
-/

namespace ThermoFun.Double

open ThermoFun.Batch

/-! ### C150: ranges -/

/-- The values of the loop variable: `x = x + step` again and again. -/
def loopVal (step x : ℚ) : Nat → ℚ
  | 0 => x
  | k + 1 => rnd (loopVal step x k + step)

lemma loopVal_succ' (step x : ℚ) : ∀ k, loopVal step (rnd (x + step)) k = loopVal step x (k + 1)
  | 0 => rfl
  | k + 1 => by rw [loopVal, loopVal_succ' step x k]; rfl

/-- The loop stops at the first value that is not below the maximum. -/
lemma rangeLoop_first (step max : ℚ) : ∀ (N : Nat) (x : ℚ), (∀ k < N, loopVal step x (k + 1) < max) →
    max ≤ loopVal step x (N + 1) → ∀ fuel, N < fuel →
    rangeLoop (⟨step⟩ : F64) ⟨max⟩ fuel ⟨x⟩ = some ((List.range (N + 1)).map (fun k => ⟨loopVal step x (k + 1)⟩))
  | 0, x, _, h, fuel, hf => by
    obtain ⟨fuel, rfl⟩ : ∃ k, fuel = k + 1 := ⟨fuel - 1, by omega⟩
    have hn : ¬ ((⟨x⟩ : F64) + ⟨step⟩ < ⟨max⟩) := by
      change ¬ (rnd (x + step) < max)
      exact not_lt.mpr h
    rw [rangeLoop]
    simp only [hn, if_false]
    rfl
  | N + 1, x, hl, h, fuel, hf => by
    obtain ⟨fuel, rfl⟩ : ∃ k, fuel = k + 1 := ⟨fuel - 1, by omega⟩
    have h1 : (⟨x⟩ : F64) + ⟨step⟩ < ⟨max⟩ := by
      change rnd (x + step) < max
      exact hl 0 (by omega)
    have h2 : (⟨x⟩ : F64) + ⟨step⟩ = ⟨rnd (x + step)⟩ := rfl
    rw [rangeLoop]
    simp only [h1, if_true]
    rw [h2, rangeLoop_first step max N (rnd (x + step)) (fun k hk => by
      rw [loopVal_succ']; exact hl (k + 1) (by omega)) (by rw [loopVal_succ']; exact h) fuel (by omega)]
    rw [List.range_succ_eq_map (n := N + 1)]
    simp only [List.map_cons, List.map_map, Option.map_some, Option.some.injEq, List.cons.injEq]
    refine ⟨rfl, ?_⟩
    apply List.map_congr_left
    intro k _
    simp only [Function.comp_apply, loopVal_succ', Nat.succ_eq_add_one]

/-- While the numbers stay within `M` every step adds an error of at most `M/2^53`. -/
lemma loopVal_err {min step M : ℚ} {n : Nat} (hs : 0 < step) (hM0 : 2 ^ (-1022 : ℤ) ≤ M)
    (hM : |min| + (n + 4) * step ≤ M) (hu : (n + 4) * (M / 2 ^ 53) < step) :
    ∀ k, k ≤ n + 2 → |loopVal step (rnd (min - step)) k - (min + ((k : ℚ) - 1) * step)| ≤ ((k : ℚ) + 1) * (M / 2 ^ 53) := by
  have hMp : 0 < M := lt_of_lt_of_le (two_zpow_pos _) hM0
  have hup : 0 < M / 2 ^ 53 := by positivity
  have hn : (0 : ℚ) ≤ n := Nat.cast_nonneg n
  intro k
  induction k with
  | zero =>
    intro _
    have h1 : |min - step| ≤ M := by
      have := abs_sub min step
      rw [abs_of_pos hs] at this
      nlinarith
    have := rnd_err_le h1 hM0
    rw [loopVal]
    simpa [sub_eq_add_neg] using this
  | succ k ih =>
    intro hk
    have h := ih (by omega)
    have hk' : (k : ℚ) ≤ n + 1 := by
      have : k ≤ n + 1 := by omega
      exact_mod_cast this
    have hk0 : (0 : ℚ) ≤ k := Nat.cast_nonneg k
    set x := loopVal step (rnd (min - step)) k with hx
    have h2 : |x + step| ≤ M := by
      have e : x + step = (x - (min + ((k : ℚ) - 1) * step)) + min + (k : ℚ) * step := by ring
      rw [e]
      have t1 := abs_add_le ((x - (min + ((k : ℚ) - 1) * step)) + min) ((k : ℚ) * step)
      have t2 := abs_add_le (x - (min + ((k : ℚ) - 1) * step)) min
      rw [abs_of_nonneg (mul_nonneg hk0 hs.le)] at t1
      have t3 : ((k : ℚ) + 1) * (M / 2 ^ 53) ≤ step := by nlinarith
      nlinarith
    have h3 := rnd_err_le h2 hM0
    rw [loopVal, ← hx]
    have e : rnd (x + step) - (min + (((k + 1 : Nat) : ℚ) - 1) * step) =
        (rnd (x + step) - (x + step)) + (x - (min + ((k : ℚ) - 1) * step)) := by push_cast; ring
    rw [e]
    refine le_trans (abs_add_le _ _) ?_
    push_cast
    linarith

/-- **C150 (points).** Ask for the points `min, min + step, …` up to `max`, where `max` is `min + n·step` up to an error
that, with the rounding errors, is less than a step.  Then the loop ends, and gives n + 1 or n + 2 points, the k-th of them
`min + k·step` up to k + 2 rounding errors of the size of the numbers. -/
theorem C150_points (min max step M : ℚ) (n : Nat) (hs : 0 < step) (hM0 : 2 ^ (-1022 : ℤ) ≤ M)
    (hM : |min| + (n + 4) * step ≤ M) (hu : (n + 4) * (M / 2 ^ 53) + |max - (min + n * step)| < step) :
    ∃ L : List F64, (L.length = n + 1 ∨ L.length = n + 2) ∧
      (∀ fuel, n + 2 ≤ fuel → range fuel (⟨min⟩ : F64) ⟨max⟩ ⟨step⟩ = some L) ∧
      ∀ k (hk : k < L.length), |L[k].val - (min + k * step)| ≤ ((k : ℚ) + 2) * (M / 2 ^ 53) := by
  have hMp : 0 < M := lt_of_lt_of_le (two_zpow_pos _) hM0
  have hup : 0 < M / 2 ^ 53 := by positivity
  have hn : (0 : ℚ) ≤ n := Nat.cast_nonneg n
  have habs := abs_nonneg (max - (min + n * step))
  have herr := loopVal_err (min := min) (n := n) hs hM0 hM (by linarith)
  have hmax := abs_le.mp (le_refl |max - (min + n * step)|)
  set δ := |max - (min + n * step)| with hδ
  set x := rnd (min - step) with hx
  -- values before the n-th point are below the maximum
  have hlow : ∀ k, k < n → loopVal step x (k + 1) < max := by
    intro k hk
    have h := (abs_le.mp (herr (k + 1) (by omega))).2
    push_cast at h
    have hk' : (k : ℚ) + 1 ≤ n := by exact_mod_cast hk
    nlinarith [hmax.1]
  have hhigh : max ≤ loopVal step x (n + 2) := by
    have h := (abs_le.mp (herr (n + 2) (le_refl _))).1
    push_cast at h
    nlinarith [hmax.2]
  have hpt : ∀ k, k < n + 2 → |loopVal step x (k + 1) - (min + k * step)| ≤ ((k : ℚ) + 2) * (M / 2 ^ 53) := by
    intro k hk
    have h := herr (k + 1) (by omega)
    push_cast at h
    have e1 : min + ((k : ℚ) + 1 - 1) * step = min + k * step := by ring
    have e2 : (k : ℚ) + 1 + 1 = k + 2 := by ring
    rw [e1, e2] at h
    exact h
  have hstart : (⟨min⟩ : F64) - ⟨step⟩ = ⟨x⟩ := rfl
  by_cases hN : max ≤ loopVal step x (n + 1)
  · refine ⟨(List.range (n + 1)).map (fun k => ⟨loopVal step x (k + 1)⟩), Or.inl (by simp), ?_, ?_⟩
    · intro fuel hf
      rw [range, hstart]
      exact rangeLoop_first step max n x hlow hN fuel (by omega)
    · intro k hk
      simp only [List.length_map, List.length_range] at hk
      simp only [List.getElem_map, List.getElem_range]
      exact hpt k (by omega)
  · push Not at hN
    refine ⟨(List.range (n + 2)).map (fun k => ⟨loopVal step x (k + 1)⟩), Or.inr (by simp), ?_, ?_⟩
    · intro fuel hf
      rw [range, hstart]
      refine rangeLoop_first step max (n + 1) x (fun k hk => ?_) hhigh fuel (by omega)
      rcases Nat.lt_succ_iff_lt_or_eq.mp hk with h | h
      · exact hlow k h
      · rw [h]; exact hN
    · intro k hk
      simp only [List.length_map, List.length_range] at hk
      simp only [List.getElem_map, List.getElem_range]
      exact hpt k (by omega)

/-- From 25 to 300 °C in steps of 0.1 degrees. -/
example : (0 : ℚ) < rnd (1 / 10) ∧ (2 : ℚ) ^ (-1022 : ℤ) ≤ 1000 ∧
    |(25 : ℚ)| + ((2750 : Nat) + 4) * rnd (1 / 10) ≤ 1000 ∧
    ((2750 : Nat) + 4 : ℚ) * (1000 / 2 ^ 53) + |300 - (25 + (2750 : Nat) * rnd (1 / 10))| < rnd (1 / 10) := by
  have h : rnd (1 / 10) = 3602879701896397 / 36028797018963968 := by decide +kernel
  rw [h]
  refine ⟨by norm_num, ?_, by norm_num, ?_⟩
  · exact le_trans (zpow_le_one_of_nonpos₀ (by norm_num) (by norm_num)) (by norm_num)
  · norm_num [abs_lt]

/-- **C150 (part).** Full statement: asked for the points from `min` to `min + n·step`, the loop gives exactly the n + 1
numbers `min + k·step`.  Proved for numbers that are whole multiples of one power of two (whole numbers, halves, quarters, …)
up to 2^53 of them.  Missing: other steps; there it is false, below. -/
theorem C150_partial (a s e : ℤ) (n : Nat) (hs : 0 < s) (he : -1074 ≤ e) (ha : |a| + (n + 1) * s ≤ 2 ^ 53) :
    ∀ fuel, n < fuel → range fuel (⟨a * 2 ^ e⟩ : F64) ⟨((a + n * s : ℤ) : ℚ) * 2 ^ e⟩ ⟨s * 2 ^ e⟩ =
      some ((List.range (n + 1)).map (fun k => ⟨((a + k * s : ℤ) : ℚ) * 2 ^ e⟩)) := by
  have hp := two_zpow_pos e
  have hn : (0 : ℤ) ≤ n := Int.natCast_nonneg n
  have hbound : ∀ k : Nat, k ≤ n + 1 → |a + ((k : ℤ) - 1) * s| ≤ 2 ^ 53 := by
    intro k hk
    have hk' : (k : ℤ) ≤ n + 1 := by exact_mod_cast hk
    have hk0 : (0 : ℤ) ≤ k := Int.natCast_nonneg k
    have t := abs_add_le a (((k : ℤ) - 1) * s)
    have t2 : |((k : ℤ) - 1) * s| ≤ (n + 1) * s := by
      rw [abs_mul, abs_of_pos hs]
      refine mul_le_mul_of_nonneg_right ?_ hs.le
      rw [abs_le]; constructor <;> omega
    linarith
  have hval : ∀ k : Nat, k ≤ n + 1 →
      loopVal (s * 2 ^ e) (rnd (a * 2 ^ e - s * 2 ^ e)) k = ((a + ((k : ℤ) - 1) * s : ℤ) : ℚ) * 2 ^ e := by
    intro k
    induction k with
    | zero =>
      intro h
      have : (a * 2 ^ e - s * 2 ^ e : ℚ) = ((a + (((0 : Nat) : ℤ) - 1) * s : ℤ) : ℚ) * 2 ^ e := by push_cast; ring
      rw [loopVal, this]
      exact rnd_of_isDouble (isDouble_mul (hbound 0 h) he)
    | succ k ih =>
      intro h
      rw [loopVal, ih (by omega)]
      have : ((a + ((k : ℤ) - 1) * s : ℤ) : ℚ) * 2 ^ e + s * 2 ^ e =
          ((a + (((k + 1 : Nat) : ℤ) - 1) * s : ℤ) : ℚ) * 2 ^ e := by push_cast; ring
      rw [this]
      exact rnd_of_isDouble (isDouble_mul (hbound (k + 1) h) he)
  intro fuel hf
  have hstart : (⟨a * 2 ^ e⟩ : F64) - ⟨s * 2 ^ e⟩ = ⟨rnd (a * 2 ^ e - s * 2 ^ e)⟩ := rfl
  rw [range, hstart, rangeLoop_first _ _ n _ ?_ ?_ fuel hf]
  · congr 1
    apply List.map_congr_left
    intro k hk
    rw [List.mem_range] at hk
    rw [hval (k + 1) (by omega)]
    push_cast
    simp
  · intro k hk
    rw [hval (k + 1) (by omega)]
    refine mul_lt_mul_of_pos_right ?_ hp
    have : a + (((k + 1 : Nat) : ℤ) - 1) * s < a + n * s := by
      have : (k : ℤ) < n := by exact_mod_cast hk
      push_cast
      nlinarith
    exact_mod_cast this
  · rw [hval (n + 1) (le_refl _)]
    push_cast
    simp

/-- From 25 to 300 in steps of 25, and from 0 to 100 in steps of a quarter. -/
example : |(25 : ℤ)| + ((11 : Nat) + 1) * 25 ≤ 2 ^ 53 ∧ |(0 : ℤ)| + ((400 : Nat) + 1) * 1 ≤ 2 ^ 53 := by norm_num

example : range 20 (⟨25⟩ : F64) ⟨300⟩ ⟨25⟩ = some ((List.range 12).map (fun k => ⟨25 + k * 25⟩)) := by decide +kernel

/-- **C150, violation.** Asked for the points from 0 to 1 in steps of 0.1, the loop gives twelve points; the last is 1.1 and
beyond the maximum, the eleventh is not 1. -/
theorem C150_refuted : ∃ L, (∀ fuel, 12 ≤ fuel → range fuel (lit 0) (lit 1) (lit (1 / 10)) = some L) ∧ L.length = 12 ∧
    (∃ x ∈ L, (109 / 100 : ℚ) < x.val) ∧ lit 1 ∉ L := by
  refine ⟨(List.range 12).map (fun k => ⟨loopVal (rnd (1 / 10)) (rnd (rnd 0 - rnd (1 / 10))) (k + 1)⟩), fun fuel hf => ?_,
    ?_, ?_, ?_⟩
  · exact rangeLoop_first (rnd (1 / 10)) (rnd 1) 11 (rnd (rnd 0 - rnd (1 / 10))) (by decide +kernel) (by decide +kernel)
      fuel (by omega)
  · simp
  · exact ⟨_, List.mem_map.mpr ⟨11, by simp, rfl⟩, by decide +kernel⟩
  · decide +kernel

/-- **C150, violation (no end).** A positive step does not suffice: from 2^53 to 2^53 + 2 in steps of 1 the loop never ends,
for 2^53 + 1 is rounded to 2^53. -/
theorem C150_divergence_refuted (fuel : Nat) :
    range fuel (⟨9007199254740992⟩ : F64) ⟨9007199254740994⟩ ⟨1⟩ = none := by
  have h1 : (⟨9007199254740992⟩ : F64) + ⟨1⟩ = ⟨9007199254740992⟩ := by decide +kernel
  have h2 : (⟨9007199254740992⟩ : F64) < ⟨9007199254740994⟩ := by decide +kernel
  have loop : ∀ fuel, rangeLoop (⟨1⟩ : F64) ⟨9007199254740994⟩ fuel ⟨9007199254740992⟩ = none := by
    intro fuel
    induction fuel with
    | zero => rfl
    | succ fuel ih =>
      rw [rangeLoop]
      simp only [h1, h2, if_true, ih, Option.map_none]
  cases fuel with
  | zero => rfl
  | succ fuel =>
    have h3 : (⟨9007199254740992⟩ : F64) - ⟨1⟩ + ⟨1⟩ = ⟨9007199254740992⟩ := by decide +kernel
    rw [range, rangeLoop]
    simp only [h3, h2, if_true, loop, Option.map_none]

/-- **C150 (ascending).** With a step that is not negative no point is below the one before it, whatever the rounding. -/
theorem C150_ascending (min max step : ℚ) (hs : 0 ≤ step) (fuel : Nat) (L : List F64)
    (h : range fuel (⟨min⟩ : F64) ⟨max⟩ ⟨step⟩ = some L) :
    ∀ k (hk : k + 1 < L.length), L[k].val ≤ L[k + 1].val := by
  have main : ∀ (fuel : Nat) (x : ℚ) (L : List F64), IsDouble x →
      rangeLoop (⟨step⟩ : F64) ⟨max⟩ fuel ⟨x⟩ = some L → List.IsChain (fun a b : F64 => a.val ≤ b.val) (⟨x⟩ :: L) := by
    intro fuel
    induction fuel with
    | zero => intro x L _ h; simp [rangeLoop] at h
    | succ fuel ih =>
      intro x L hx h
      have hstep : (⟨x⟩ : F64) + ⟨step⟩ = ⟨rnd (x + step)⟩ := rfl
      have hle : x ≤ rnd (x + step) := by
        have := rnd_mono (x := x) (y := x + step) (by linarith)
        rwa [rnd_of_isDouble hx] at this
      rw [rangeLoop, hstep] at h
      split at h
      · rw [Option.map_eq_some_iff] at h
        obtain ⟨L', hL', rfl⟩ := h
        exact List.IsChain.cons_cons hle (ih _ L' (isDouble_rnd _) hL')
      · rw [Option.some.injEq] at h
        subst h
        exact List.IsChain.cons_cons hle (List.isChain_singleton _)
  have hc := main fuel (rnd (min - step)) L (isDouble_rnd _) h
  intro k hk
  exact List.isChain_iff_getElem.mp hc.tail k hk

/-- Steps of 0.1. -/
example : (range 12 (⟨0⟩ : F64) ⟨1⟩ ⟨rnd (1 / 10)⟩).map List.length = some 12 := by decide +kernel

/-! ### C151: pressures of a batch -/

/-- The conversion of pressures of a batch (ThermoBatch.cpp:270, 290) between the unit of the user with factor `fa` and the
unit of the engine with factor `fb`; temperatures are not written back and enter as any function. -/
def pressureConv (fa fb : ℚ) (toT : F64 → F64) : Conv F64 := ⟨toT, convertF ⟨fa⟩ ⟨fb⟩, convertF ⟨fb⟩ ⟨fa⟩⟩

/-- The factors of bar and Pa in the table of units. -/
example : Units.fval "bar".toList = ((100000000 : ℚ) : ℝ) ∧ Units.fval "Pa".toList = ((1000 : ℚ) : ℝ) :=
  ⟨Units.fq_eq Units.depth _ _ (by decide +kernel), Units.fq_eq Units.depth _ _ (by decide +kernel)⟩

lemma conv_exact {c fb : Nat} (hc : 0 < c) (hfb : 0 < fb) {m e : ℤ} (hm : |m| * (c * fb) ≤ 2 ^ 53) (he : -1074 ≤ e) :
    convertF ⟨c * fb⟩ ⟨fb⟩ ⟨m * 2 ^ e⟩ = ⟨c * (m * 2 ^ e)⟩ ∧
    convertF ⟨fb⟩ ⟨c * fb⟩ ⟨c * (m * 2 ^ e)⟩ = ⟨m * 2 ^ e⟩ := by
  have hfbq : (fb : ℚ) ≠ 0 := by exact_mod_cast hfb.ne'
  have hcq : (c : ℚ) ≠ 0 := by exact_mod_cast hc.ne'
  have hc' : (1 : ℤ) ≤ c := by exact_mod_cast hc
  have hf' : (1 : ℤ) ≤ fb := by exact_mod_cast hfb
  have hm0 := abs_nonneg m
  have b1 : |m * (c * fb)| ≤ 2 ^ 53 := by rw [abs_mul, abs_of_nonneg (by positivity : (0 : ℤ) ≤ c * fb)]; exact hm
  have b2 : |m * c| ≤ 2 ^ 53 := by
    rw [abs_mul, abs_of_nonneg (by positivity : (0 : ℤ) ≤ c)]
    refine le_trans ?_ hm
    rw [← mul_assoc]
    exact le_mul_of_one_le_right (by positivity) hf'
  have b3 : |m| ≤ 2 ^ 53 := by
    refine le_trans ?_ hm
    exact le_mul_of_one_le_right hm0 (by nlinarith)
  have r1 := rnd_of_isDouble (isDouble_mul b1 he)
  have r2 := rnd_of_isDouble (isDouble_mul b2 he)
  have r3 := rnd_of_isDouble (isDouble_mul b3 he)
  push_cast at r1 r2 r3
  constructor
  · change (⟨rnd (rnd (m * 2 ^ e * (c * fb)) / fb)⟩ : F64) = _
    rw [show (m : ℚ) * 2 ^ e * (c * fb) = m * (c * fb) * 2 ^ e by ring, r1,
      show (m : ℚ) * (c * fb) * 2 ^ e / fb = m * c * 2 ^ e by field_simp, r2]
    congr 1; ring
  · change (⟨rnd (rnd (c * (m * 2 ^ e) * fb) / (c * fb))⟩ : F64) = _
    rw [show (c : ℚ) * (m * 2 ^ e) * fb = m * (c * fb) * 2 ^ e by ring, r1,
      show (m : ℚ) * (c * fb) * 2 ^ e / (c * fb) = m * 2 ^ e by field_simp, r3]

/-- **C151 (part).** Full statement: every row of a batch is the answer of the engine at the pressure asked for, in its own
unit, whatever the other symbols of the batch.  Proved for a unit that is a whole multiple `c` of the engine's (bar, kbar,
MPa, kPa and Pa over Pa), queries that leave the pressure alone, and pressures with few binary digits: whole multiples m of a
power of two with |m|·c·fb ≤ 2^53 (in bar, whole numbers up to 90071992, or halves, quarters, … up to that many of them).
Missing: other pressures; there it is false, below. -/
theorem C151_partial {V : Type} (pairsFirst : Bool) (c fb : Nat) (hc : 0 < c) (hfb : 0 < fb) (toT : F64 → F64)
    (eval : F64 → F64 → String → V × F64) (hev : ∀ T P sym, (eval T P sym).2 = P) (symbols : List String)
    (pairs : List (F64 × F64))
    (hp : ∀ q ∈ pairs, ∃ m e : ℤ, |m| * (c * fb) ≤ 2 ^ 53 ∧ -1074 ≤ e ∧ q.2.val = m * 2 ^ e) :
    ∃ st, calculate pairsFirst (pressureConv (c * fb) fb toT) eval symbols pairs = .ok st ∧ st.pairs = pairs ∧
      ∀ s t (hs : s < symbols.length) (ht : t < pairs.length),
        st.results[rowOf pairsFirst symbols.length pairs.length s t]? =
          some (some (eval (toT pairs[t].1) ⟨c * pairs[t].2.val⟩ symbols[s]).1) := by
  obtain ⟨st, hst, _, hlen, hpr, hr⟩ := C55_storage pairsFirst (pressureConv (c * fb) fb toT) eval symbols pairs
  have hto : ∀ q ∈ pairs, (pressureConv (c * fb) fb toT).toP q.2 = ⟨c * q.2.val⟩ ∧
      (pressureConv (c * fb) fb toT).fromP ⟨c * q.2.val⟩ = q.2 := by
    intro q hq
    obtain ⟨m, e, hm, he, hv⟩ := hp q hq
    have hq2 : q.2 = ⟨m * 2 ^ e⟩ := by
      cases h : q.2 with
      | mk v => rw [h] at hv; simp only at hv; rw [hv]
    have := conv_exact hc hfb hm he
    rw [hv]
    rw [hq2]
    exact this
  have hconst : ∀ q ∈ pairs, ∀ syms : List String,
      pAfter (pressureConv (c * fb) fb toT) eval q.1 q.2 syms = q.2 := by
    intro q hq syms
    refine pAfter_const syms (fun sym _ => ?_)
    rw [hev, (hto q hq).1, (hto q hq).2]
  refine ⟨st, hst, ?_, ?_⟩
  · apply List.ext_getElem? 
    intro t
    by_cases ht : t < pairs.length
    · rw [hpr t ht, hconst _ (List.getElem_mem ht), List.getElem?_eq_getElem ht]
    · rw [List.getElem?_eq_none (by omega), List.getElem?_eq_none (by omega)]
  · intro s t hs ht
    rw [hr s t hs ht, hconst _ (List.getElem_mem ht), (hto _ (List.getElem_mem ht)).1]
    rfl

/-- 500 bar and 0.25 bar. -/
example : (|(500 : ℤ)| * ((100000 : Nat) * (1000 : Nat)) ≤ 2 ^ 53 ∧ (-1074 : ℤ) ≤ 0 ∧ (500 : ℚ) = (500 : ℤ) * 2 ^ (0 : ℤ)) ∧
    (|(1 : ℤ)| * ((100000 : Nat) * (1000 : Nat)) ≤ 2 ^ 53 ∧ (-1074 : ℤ) ≤ -2 ∧ (1 / 4 : ℚ) = (1 : ℤ) * 2 ^ (-2 : ℤ)) := by
  norm_num

/-- **C151, violation.** At 16.9 MPa the second symbol of a batch is computed at another pressure than it is alone: the
pressure is converted to Pa and back for every symbol, and 16.9 does not come back. -/
theorem C151_refuted :
    let cv := pressureConv 1000000000 1000 id
    let eval : F64 → F64 → String → F64 × F64 := fun _ P _ => (P, P)
    ∃ st st1 P P1, calculate true cv eval ["a", "b"] [(lit 298.15, lit 16.9)] = .ok st ∧
      calculate true cv eval ["b"] [(lit 298.15, lit 16.9)] = .ok st1 ∧
      st.results[1]? = some (some P) ∧ st1.results[0]? = some (some P1) ∧ P ≠ P1 := by
  intro cv eval
  obtain ⟨st, hst, _, _, _, hr⟩ := C55_storage true cv eval ["a", "b"] [(lit 298.15, lit 16.9)]
  obtain ⟨st1, hst1, _, _, _, hr1⟩ := C55_storage true cv eval ["b"] [(lit 298.15, lit 16.9)]
  exact ⟨st, st1, _, _, hst, hst1, hr 1 0 (by simp) (by simp), hr1 0 0 (by simp) (by simp), by decide +kernel⟩

/-- **C151, violation (pressure reported).** Asked for 10.7 bar, the batch reports its results for another number. -/
theorem C151_report_refuted :
    let cv := pressureConv 100000000 1000 id
    let eval : F64 → F64 → String → F64 × F64 := fun _ P _ => (P, P)
    ∃ st P, calculate true cv eval ["a"] [(lit 298.15, lit 10.7)] = .ok st ∧ st.pairs[0]? = some (lit 298.15, P) ∧
      P ≠ lit 10.7 := by
  intro cv eval
  obtain ⟨st, hst, _, _, hp, _⟩ := C55_storage true cv eval ["a"] [(lit 298.15, lit 10.7)]
  exact ⟨st, _, hst, hp 0 (by simp), by decide +kernel⟩

lemma rnd_rel {q : ℚ} (h : 2 ^ (-1022 : ℤ) ≤ q) : q * (1 - 1 / 2 ^ 53) ≤ rnd q ∧ rnd q ≤ q * (1 + 1 / 2 ^ 53) := by
  have hq : 0 < q := lt_of_lt_of_le (two_zpow_pos _) h
  have := abs_le.mp (rnd_err_le (le_of_eq (abs_of_pos hq)) h)
  constructor <;> linarith [this.1, this.2]

/-- One conversion to the other unit and back changes a number by at most five parts in 2^53. -/
lemma trip_err {fa fb x : ℚ} (ha : 1 ≤ fa) (hb : 1 ≤ fb) (hb' : fb ≤ 2 ^ 100) (ha' : fa ≤ 2 ^ 100)
    (hx : 2 ^ (-800 : ℤ) ≤ x) :
    |(convertF ⟨fb⟩ ⟨fa⟩ (convertF ⟨fa⟩ ⟨fb⟩ ⟨x⟩)).val - x| ≤ 5 / 2 ^ 53 * x := by
  have hx0 : 0 < x := lt_of_lt_of_le (two_zpow_pos _) hx
  have hfa : 0 < fa := by linarith
  have hfb : 0 < fb := by linarith
  set u : ℚ := 1 / 2 ^ 53 with hu
  have hu0 : 0 < u := by rw [hu]; norm_num
  have hu1 : u ≤ 1 / 100 := by rw [hu]; norm_num
  have w1 : 0 ≤ 1 - u := sub_nonneg.mpr (le_trans hu1 (by norm_num))
  have w2 : 0 ≤ 1 + u := by linarith only [hu0]
  have small : ∀ k : ℚ, 1 / 2 ^ 150 ≤ k → (2 : ℚ) ^ (-1022 : ℤ) ≤ k * x := by
    intro k hk
    have e : (2 : ℚ) ^ (-1022 : ℤ) = 2 ^ (-222 : ℤ) * 2 ^ (-800 : ℤ) := by rw [← zpow_add₀ (by norm_num)]; norm_num
    rw [e]
    refine mul_le_mul (le_trans ?_ hk) hx (two_zpow_pos _).le (le_trans (by norm_num) hk)
    rw [show (1 : ℚ) / 2 ^ 150 = 2 ^ (-150 : ℤ) by rw [zpow_neg]; norm_num]
    exact zpow_le_zpow_right₀ (by norm_num) (by norm_num)
  -- x * fa
  set A := rnd (x * fa) with hA
  have rA := rnd_rel (q := x * fa) (by
    rw [mul_comm]; exact small fa (le_trans (by norm_num) ha))
  rw [← hA] at rA
  have A1 : x * fa * (1 - u) ≤ A := rA.1
  have A2 : A ≤ x * fa * (1 + u) := rA.2
  have hfab : 1 / 2 ^ 100 ≤ fa / fb := by
    rw [div_le_div_iff₀ (by norm_num) hfb]
    nlinarith
  -- / fb
  have qB1 : x * (fa / fb) * (1 - u) ≤ A / fb := by rw [le_div_iff₀ hfb]; calc
      _ = x * fa * (1 - u) := by field_simp
      _ ≤ A := A1
  have qB2 : A / fb ≤ x * (fa / fb) * (1 + u) := by rw [div_le_iff₀ hfb]; calc
      A ≤ x * fa * (1 + u) := A2
      _ = _ := by field_simp
  have hpos : 0 < x * (fa / fb) := by positivity
  set B := rnd (A / fb) with hB
  have rB := rnd_rel (q := A / fb) (by
    refine le_trans (small (fa / fb * (1 - u)) ?_) (le_of_eq_of_le (by ring) qB1)
    have : (1 : ℚ) / 2 ^ 100 * (1 / 2) ≤ fa / fb * (1 - u) :=
      mul_le_mul hfab (by linarith) (by norm_num) (by positivity)
    exact le_trans (by norm_num) this)
  rw [← hB] at rB
  have B1 : x * (fa / fb) * (1 - u) ^ 2 ≤ B := by
    refine le_trans ?_ rB.1
    have := mul_le_mul_of_nonneg_right qB1 w1
    calc _ = x * (fa / fb) * (1 - u) * (1 - u) := by ring
      _ ≤ _ := this
  have B2 : B ≤ x * (fa / fb) * (1 + u) ^ 2 := by
    refine le_trans rB.2 ?_
    have := mul_le_mul_of_nonneg_right qB2 w2
    calc _ ≤ x * (fa / fb) * (1 + u) * (1 + u) := this
      _ = _ := by ring
  -- * fb
  have qC1 : x * fa * (1 - u) ^ 2 ≤ B * fb := by
    have := mul_le_mul_of_nonneg_right B1 hfb.le
    calc _ = x * (fa / fb) * (1 - u) ^ 2 * fb := by field_simp
      _ ≤ _ := this
  have qC2 : B * fb ≤ x * fa * (1 + u) ^ 2 := by
    have := mul_le_mul_of_nonneg_right B2 hfb.le
    calc _ ≤ x * (fa / fb) * (1 + u) ^ 2 * fb := this
      _ = _ := by field_simp
  have h34 : (1 / 2 : ℚ) ≤ (1 - u) ^ 2 := by nlinarith
  set C := rnd (B * fb) with hC
  have rC := rnd_rel (q := B * fb) (by
    refine le_trans (small (fa * (1 - u) ^ 2) ?_) (le_of_eq_of_le (by ring) qC1)
    have : (1 : ℚ) * (1 / 2) ≤ fa * (1 - u) ^ 2 := mul_le_mul ha h34 (by norm_num) hfa.le
    exact le_trans (by norm_num) this)
  rw [← hC] at rC
  have C1 : x * fa * (1 - u) ^ 3 ≤ C := by
    refine le_trans ?_ rC.1
    have := mul_le_mul_of_nonneg_right qC1 w1
    calc _ = x * fa * (1 - u) ^ 2 * (1 - u) := by ring
      _ ≤ _ := this
  have C2 : C ≤ x * fa * (1 + u) ^ 3 := by
    refine le_trans rC.2 ?_
    have := mul_le_mul_of_nonneg_right qC2 w2
    calc _ ≤ x * fa * (1 + u) ^ 2 * (1 + u) := this
      _ = _ := by ring
  -- / fa
  have qD1 : x * (1 - u) ^ 3 ≤ C / fa := by rw [le_div_iff₀ hfa]; linarith
  have qD2 : C / fa ≤ x * (1 + u) ^ 3 := by rw [div_le_iff₀ hfa]; linarith
  have h35 : (1 / 2 : ℚ) ≤ (1 - u) ^ 3 := by nlinarith
  have rD := rnd_rel (q := C / fa) (by
    refine le_trans (small ((1 - u) ^ 3) (le_trans (by norm_num) h35)) (le_of_eq_of_le (by ring) qD1))
  have hval : (convertF ⟨fb⟩ ⟨fa⟩ (convertF ⟨fa⟩ ⟨fb⟩ ⟨x⟩)).val = rnd (C / fa) := rfl
  rw [hval, abs_le]
  have D1 : x * (1 - u) ^ 4 ≤ rnd (C / fa) := by
    refine le_trans ?_ rD.1
    have := mul_le_mul_of_nonneg_right qD1 w1
    calc _ = x * (1 - u) ^ 3 * (1 - u) := by ring
      _ ≤ _ := this
  have D2 : rnd (C / fa) ≤ x * (1 + u) ^ 4 := by
    refine le_trans rD.2 ?_
    have := mul_le_mul_of_nonneg_right qD2 w2
    calc _ ≤ x * (1 + u) ^ 3 * (1 + u) := this
      _ = _ := by ring
  have e1 : (1 + u) ^ 4 ≤ 1 + 5 / 2 ^ 53 := by rw [hu]; norm_num
  have e2 : 1 - 5 / 2 ^ 53 ≤ (1 - u) ^ 4 := by rw [hu]; norm_num
  have f1 := mul_le_mul_of_nonneg_left e1 hx0.le
  have f2 := mul_le_mul_of_nonneg_left e2 hx0.le
  constructor <;> linarith

/-- **C151 (bound).** For every pair of units and every pressure the symbols of a batch are computed at pressures that come
from the one asked for to a relative error of six parts in 2^53 per preceding symbol (7e-13 after a thousand symbols), if the
queries leave the pressure alone. -/
theorem C151_bound {V : Type} (fa fb P : ℚ) (ha : 1 ≤ fa) (ha' : fa ≤ 2 ^ 100) (hb : 1 ≤ fb) (hb' : fb ≤ 2 ^ 100)
    (hP : 2 ^ (-700 : ℤ) ≤ P) (toT : F64 → F64) (T : F64) (eval : F64 → F64 → String → V × F64)
    (hev : ∀ T P sym, (eval T P sym).2 = P) (syms : List String) (hn : syms.length ≤ 2 ^ 40) :
    |(pAfter (pressureConv fa fb toT) eval T ⟨P⟩ syms).val - P| ≤ 6 * syms.length / 2 ^ 53 * P := by
  have hP0 : 0 < P := lt_of_lt_of_le (two_zpow_pos _) hP
  have main : ∀ (syms : List String) (x : ℚ) (n : Nat), n + syms.length ≤ 2 ^ 40 → |x - P| ≤ 6 * n / 2 ^ 53 * P →
      |(pAfter (pressureConv fa fb toT) eval T ⟨x⟩ syms).val - P| ≤ 6 * (n + syms.length : Nat) / 2 ^ 53 * P := by
    intro syms
    induction syms with
    | nil => intro x n _ h; simpa [pAfter] using h
    | cons sym syms ih =>
      intro x n hlen h
      have hstep : pAfter (pressureConv fa fb toT) eval T ⟨x⟩ (sym :: syms) =
          pAfter (pressureConv fa fb toT) eval T (convertF ⟨fb⟩ ⟨fa⟩ (convertF ⟨fa⟩ ⟨fb⟩ ⟨x⟩)) syms := by
        simp only [pAfter, List.foldl_cons, hev]
        rfl
      have hlen' : (n : ℚ) ≤ 2 ^ 40 := by
        have : n ≤ 2 ^ 40 := by simp only [List.length_cons] at hlen; omega
        exact_mod_cast this
      have hn0 : (0 : ℚ) ≤ n := Nat.cast_nonneg n
      have hsm : 6 * (n : ℚ) / 2 ^ 53 ≤ 1 / 10 := by
        rw [div_le_iff₀ (by norm_num)]
        linarith only [hlen']
      have hx := abs_le.mp h
      have hsP := mul_le_mul_of_nonneg_right hsm hP0.le
      have hx2 : x ≤ 6 / 5 * P := by linarith [hx.2]
      have hx1 : (1 / 2 : ℚ) * P ≤ x := by linarith [hx.1]
      have hxs : (2 : ℚ) ^ (-800 : ℤ) ≤ x := by
        refine le_trans ?_ hx1
        have e : (2 : ℚ) ^ (-800 : ℤ) = 2 ^ (-100 : ℤ) * 2 ^ (-700 : ℤ) := by rw [← zpow_add₀ (by norm_num)]; norm_num
        rw [e]
        refine mul_le_mul ?_ hP (two_zpow_pos _).le (by norm_num)
        rw [show (1 / 2 : ℚ) = 2 ^ (-1 : ℤ) by norm_num]
        exact zpow_le_zpow_right₀ (by norm_num) (by norm_num)
      have ht := trip_err ha hb hb' ha' hxs
      rw [hstep]
      set y := (convertF ⟨fb⟩ ⟨fa⟩ (convertF ⟨fa⟩ ⟨fb⟩ (⟨x⟩ : F64))).val with hy
      have := ih y (n + 1) (by simp only [List.length_cons] at hlen; omega) (by
        have t := abs_sub_le y x P
        have : 5 / 2 ^ 53 * x ≤ 6 / 2 ^ 53 * P := by linarith
        push_cast
        calc |y - P| ≤ |y - x| + |x - P| := t
          _ ≤ 6 / 2 ^ 53 * P + 6 * n / 2 ^ 53 * P := by linarith
          _ = _ := by ring)
      simp only [List.length_cons]
      rw [show n + (syms.length + 1) = n + 1 + syms.length by ring]
      exact this
  have := main syms P 0 (by omega) (by simp)
  simpa using this

/-- bar and Pa at 10.7 bar, three symbols. -/
example : (1 : ℚ) ≤ 100000000 ∧ (100000000 : ℚ) ≤ 2 ^ 100 ∧ (1 : ℚ) ≤ 1000 ∧ (1000 : ℚ) ≤ 2 ^ 100 ∧
    (2 : ℚ) ^ (-700 : ℤ) ≤ 10.7 ∧ ["a", "b", "c"].length ≤ 2 ^ 40 := by
  refine ⟨by norm_num, by norm_num, by norm_num, by norm_num, ?_, by norm_num⟩
  exact le_trans (zpow_le_one_of_nonpos₀ (by norm_num) (by norm_num)) (by norm_num)

end ThermoFun.Double

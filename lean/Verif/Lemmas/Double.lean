import Mathlib.Tactic.Linarith
import Mathlib.Tactic.FieldSimp
import Mathlib.Tactic.Positivity
import Mathlib.Tactic.Ring
import Mathlib.Tactic.NormNum
import Mathlib.Tactic.Push
import Verif.Model.Double

/-! Facts about rounding to doubles. -/

namespace ThermoFun.Double

/-- The numbers a double can hold: at most 53 binary digits, none below 2^-1074 (no upper limit: overflow is not
modelled). -/
def IsDouble (q : ℚ) : Prop := ∃ m e : ℤ, |m| ≤ 2 ^ 53 ∧ -1074 ≤ e ∧ q = m * 2 ^ e

lemma two_zpow_pos (e : ℤ) : (0 : ℚ) < 2 ^ e := zpow_pos (by norm_num) e

lemma roundEven_int (m : ℤ) : roundEven (m : ℚ) = m := by
  unfold roundEven
  rw [Int.floor_intCast, sub_self, if_pos (by norm_num)]

lemma roundEven_cases (x : ℚ) : roundEven x = ⌊x⌋ ∧ x - ⌊x⌋ ≤ 1 / 2 ∨ roundEven x = ⌊x⌋ + 1 ∧ 1 / 2 ≤ x - ⌊x⌋ := by
  unfold roundEven
  split
  · left; exact ⟨rfl, by linarith⟩
  · rename_i h
    split
    · right; exact ⟨rfl, by linarith⟩
    · rename_i h'
      split
      · left; exact ⟨rfl, by linarith⟩
      · right; exact ⟨rfl, by linarith⟩

lemma roundEven_err (x : ℚ) : |(roundEven x : ℚ) - x| ≤ 1 / 2 := by
  have h1 := Int.floor_le x
  have h2 := Int.lt_floor_add_one x
  rcases roundEven_cases x with ⟨h, h'⟩ | ⟨h, h'⟩ <;> rw [h, abs_le] <;> push_cast <;> constructor <;> linarith

/-- No integer is nearer. -/
lemma roundEven_nearest (x : ℚ) (m : ℤ) : |(roundEven x : ℚ) - x| ≤ |(m : ℚ) - x| := by
  have h1 := Int.floor_le x
  have h2 := Int.lt_floor_add_one x
  rcases le_or_gt m ⌊x⌋ with hm | hm
  · have hm' : (m : ℚ) ≤ ⌊x⌋ := by exact_mod_cast hm
    rw [abs_of_nonpos (by linarith : (m : ℚ) - x ≤ 0)]
    rcases roundEven_cases x with ⟨h, h'⟩ | ⟨h, h'⟩ <;> rw [h, abs_le] <;> push_cast <;> constructor <;> linarith
  · have hm' : (⌊x⌋ : ℚ) + 1 ≤ m := by exact_mod_cast hm
    rw [abs_of_nonneg (by linarith : 0 ≤ (m : ℚ) - x)]
    rcases roundEven_cases x with ⟨h, h'⟩ | ⟨h, h'⟩ <;> rw [h, abs_le] <;> push_cast <;> constructor <;> linarith

lemma rnd_zero : rnd 0 = 0 := by
  have : roundEven 0 = 0 := by have := roundEven_int 0; simpa using this
  simp [rnd, this]

lemma log_bounds {q : ℚ} (h : q ≠ 0) : (2 : ℚ) ^ Int.log 2 |q| ≤ |q| ∧ |q| < 2 ^ (Int.log 2 |q| + 1) := by
  have hp := abs_pos.mpr h
  have h1 := Int.zpow_log_le_self (b := 2) (by norm_num) hp
  have h2 := Int.lt_zpow_succ_log_self (b := 2) (by norm_num) |q|
  exact ⟨by exact_mod_cast h1, by exact_mod_cast h2⟩

lemma abs_lt_expo {q : ℚ} (h : q ≠ 0) : |q| < 2 ^ (53 : ℤ) * 2 ^ expo q := by
  have h2 := (log_bounds h).2
  rw [← zpow_add₀ (by norm_num)]
  refine lt_of_lt_of_le h2 (zpow_le_zpow_right₀ (by norm_num) ?_)
  have := le_max_left (Int.log 2 |q| - 52) (-1074)
  unfold expo; omega

lemma expo_ge (q : ℚ) : -1074 ≤ expo q := le_max_right _ _

/-- The error of one operation. -/
lemma rnd_err (q : ℚ) : |rnd q - q| ≤ 2 ^ expo q / 2 := by
  have hp := two_zpow_pos (expo q)
  have h := roundEven_err (q / 2 ^ expo q)
  have e : rnd q - q = ((roundEven (q / 2 ^ expo q) : ℚ) - q / 2 ^ expo q) * 2 ^ expo q := by
    rw [sub_mul, div_mul_cancel₀ _ hp.ne']; rfl
  rw [e, abs_mul, abs_of_pos hp]
  calc _ ≤ 1 / 2 * (2 : ℚ) ^ expo q := mul_le_mul_of_nonneg_right h hp.le
    _ = _ := by ring

/-- The relative error of one operation is at most 2^-53, for a bound `M` on the exact result. -/
lemma rnd_err_le {q M : ℚ} (hq : |q| ≤ M) (hM : 2 ^ (-1022 : ℤ) ≤ M) : |rnd q - q| ≤ M / 2 ^ 53 := by
  have hMp : 0 < M := lt_of_lt_of_le (two_zpow_pos _) hM
  by_cases h0 : q = 0
  · rw [h0, rnd_zero]; simp; positivity
  refine le_trans (rnd_err q) ?_
  have h1 := (log_bounds h0).1
  rcases le_total (-1074) (Int.log 2 |q| - 52) with h | h
  · have he : expo q = Int.log 2 |q| - 52 := max_eq_left h
    rw [he, zpow_sub₀ (by norm_num)]
    have : (2 : ℚ) ^ Int.log 2 |q| ≤ M := le_trans h1 hq
    rw [div_div]
    norm_num
    linarith
  · have he : expo q = -1074 := max_eq_right h
    rw [he]
    have e : (2 : ℚ) ^ (-1074 : ℤ) / 2 = 2 ^ (-1022 : ℤ) / 2 ^ 53 := by
      rw [show (-1074 : ℤ) = -1022 - 52 by norm_num, zpow_sub₀ (by norm_num), div_div]; norm_num
    rw [e]
    gcongr

lemma abs_cast_le {m : ℤ} (h : |m| ≤ 2 ^ 53) : |(m : ℚ)| ≤ 2 ^ (53 : ℤ) := by
  have : ((|m| : ℤ) : ℚ) ≤ 9007199254740992 := by exact_mod_cast h
  rw [Int.cast_abs] at this
  norm_num
  exact this

lemma abs_cast_lt {m : ℤ} (h : |m| < 2 ^ 53) : |(m : ℚ)| < 2 ^ (53 : ℤ) := by
  have : ((|m| : ℤ) : ℚ) < 9007199254740992 := by exact_mod_cast h
  rw [Int.cast_abs] at this
  norm_num
  exact this

/-- What a double can hold is not changed by rounding. -/
lemma rnd_of_isDouble {q : ℚ} (h : IsDouble q) : rnd q = q := by
  obtain ⟨m, e, hm, he, rfl⟩ := h
  by_cases h0 : m = 0
  · simp [h0, rnd_zero]
  have hp := two_zpow_pos e
  have hq : (m : ℚ) * 2 ^ e ≠ 0 := mul_ne_zero (by exact_mod_cast h0) hp.ne'
  set E := expo ((m : ℚ) * 2 ^ e) with hE
  have key : ∃ k : ℤ, (m : ℚ) * 2 ^ e = k * 2 ^ E := by
    have habs : |(m : ℚ) * 2 ^ e| = |(m : ℚ)| * 2 ^ e := by rw [abs_mul, abs_of_pos hp]
    have h1 := (log_bounds hq).1
    rcases lt_or_eq_of_le hm with hlt | heq
    · have hlog : Int.log 2 |(m : ℚ) * 2 ^ e| < e + 53 := by
        have : (2 : ℚ) ^ Int.log 2 |(m : ℚ) * 2 ^ e| < 2 ^ (e + 53) := by
          refine lt_of_le_of_lt h1 ?_
          rw [habs, zpow_add₀ (by norm_num), mul_comm]
          refine mul_lt_mul_of_pos_left ?_ hp
          exact abs_cast_lt hlt
        exact (zpow_lt_zpow_iff_right₀ (by norm_num)).mp this
      have hEe : E ≤ e := by
        rw [hE]; unfold expo
        exact max_le (by omega) he
      refine ⟨m * 2 ^ (e - E).toNat, ?_⟩
      push_cast
      rw [mul_assoc, ← zpow_natCast, Int.toNat_of_nonneg (by omega), ← zpow_add₀ (by norm_num)]
      congr 2; omega
    · have hlog : Int.log 2 |(m : ℚ) * 2 ^ e| ≤ e + 53 := by
        have : (2 : ℚ) ^ Int.log 2 |(m : ℚ) * 2 ^ e| ≤ 2 ^ (e + 53) := by
          refine le_trans h1 ?_
          rw [habs, zpow_add₀ (by norm_num), mul_comm]
          refine mul_le_mul_of_nonneg_left ?_ hp.le
          exact abs_cast_le hm
        exact (zpow_le_zpow_iff_right₀ (by norm_num)).mp this
      have hEe : E ≤ e + 1 := by
        rw [hE]; unfold expo
        exact max_le (by omega) (by omega)
      obtain ⟨c, hc⟩ : (2 : ℤ) ∣ m := by
        rw [← dvd_abs, heq]; exact ⟨2 ^ 52, by norm_num⟩
      refine ⟨c * 2 ^ (e + 1 - E).toNat, ?_⟩
      push_cast
      rw [mul_assoc, ← zpow_natCast, Int.toNat_of_nonneg (by omega), ← zpow_add₀ (by norm_num), hc,
        show e + 1 - E + E = e + 1 by ring, zpow_add₀ (by norm_num), zpow_one]
      push_cast; ring
  obtain ⟨k, hk⟩ := key
  have hpE := two_zpow_pos E
  unfold rnd
  rw [← hE, hk, mul_div_assoc, div_self hpE.ne', mul_one, roundEven_int]

/-- Rounding gives a double. -/
lemma isDouble_rnd (q : ℚ) : IsDouble (rnd q) := by
  by_cases h0 : q = 0
  · exact ⟨0, 0, by norm_num, by norm_num, by simp [h0, rnd_zero]⟩
  refine ⟨roundEven (q / 2 ^ expo q), expo q, ?_, expo_ge q, rfl⟩
  have hp := two_zpow_pos (expo q)
  have h := abs_lt_expo h0
  have hx : |q / 2 ^ expo q| < 2 ^ (53 : ℤ) := by
    rw [abs_div, abs_of_pos hp, div_lt_iff₀ hp]; exact h
  have hx' := abs_lt.mp hx
  have f1 : ⌊q / 2 ^ expo q⌋ < 2 ^ 53 := by
    rw [Int.floor_lt]; push_cast; exact_mod_cast hx'.2
  have f2 : -2 ^ 53 ≤ ⌊q / 2 ^ expo q⌋ := by
    rw [Int.le_floor]; push_cast; exact_mod_cast hx'.1.le
  rw [abs_le]
  rcases roundEven_cases (q / 2 ^ expo q) with ⟨h, _⟩ | ⟨h, _⟩ <;> rw [h] <;> constructor <;> omega

/-- No double is nearer to the exact result. -/
lemma rnd_nearest (q : ℚ) {d : ℚ} (hd : IsDouble d) : |rnd q - q| ≤ |d - q| := by
  by_cases h0 : q = 0
  · rw [h0, rnd_zero]; simp
  have hp := two_zpow_pos (expo q)
  have scale : ∀ k : ℤ, |rnd q - q| ≤ |(k : ℚ) * 2 ^ expo q - q| := by
    intro k
    have h := roundEven_nearest (q / 2 ^ expo q) k
    have e1 : rnd q - q = ((roundEven (q / 2 ^ expo q) : ℚ) - q / 2 ^ expo q) * 2 ^ expo q := by
      rw [sub_mul, div_mul_cancel₀ _ hp.ne']; rfl
    have e2 : (k : ℚ) * 2 ^ expo q - q = ((k : ℚ) - q / 2 ^ expo q) * 2 ^ expo q := by
      rw [sub_mul, div_mul_cancel₀ _ hp.ne']
    rw [e1, e2, abs_mul, abs_mul]
    exact mul_le_mul_of_nonneg_right h (abs_nonneg _)
  obtain ⟨m, e, hm, he, rfl⟩ := hd
  rcases le_or_gt (expo q) e with h | h
  · have := scale (m * 2 ^ (e - expo q).toNat)
    push_cast at this
    rw [mul_assoc, ← zpow_natCast, Int.toNat_of_nonneg (by omega), ← zpow_add₀ (by norm_num), sub_add_cancel] at this
    exact this
  · -- the other double lies below the binade of q
    have hE : expo q = Int.log 2 |q| - 52 := by
      unfold expo at h ⊢
      rcases max_choice (Int.log 2 |q| - 52) (-1074) with h' | h' <;> omega
    have hlow : (2 : ℚ) ^ (52 : ℤ) * 2 ^ expo q ≤ |q| := by
      rw [← zpow_add₀ (by norm_num), hE]
      have := (log_bounds h0).1
      rwa [show (52 : ℤ) + (Int.log 2 |q| - 52) = Int.log 2 |q| by ring]
    have hdle : |(m : ℚ) * 2 ^ e| ≤ 2 ^ (52 : ℤ) * 2 ^ expo q := by
      rw [abs_mul, abs_of_pos (two_zpow_pos e)]
      have h1 := abs_cast_le hm
      calc |(m : ℚ)| * 2 ^ e ≤ 2 ^ (53 : ℤ) * 2 ^ e := mul_le_mul_of_nonneg_right h1 (two_zpow_pos e).le
        _ = 2 ^ (53 + e) := by rw [zpow_add₀ (by norm_num)]
        _ ≤ 2 ^ (52 + expo q) := zpow_le_zpow_right₀ (by norm_num) (by omega)
        _ = _ := by rw [zpow_add₀ (by norm_num)]
    have hdl := abs_le.mp hdle
    rcases lt_or_gt_of_ne h0 with hneg | hpos
    · have := scale (-2 ^ 52)
      push_cast at this
      rw [abs_of_neg hneg] at hlow
      refine le_trans this ?_
      have a1 : (0 : ℚ) ≤ -4503599627370496 * 2 ^ expo q - q := by norm_num at hlow ⊢; linarith
      have a2 : (0 : ℚ) ≤ m * 2 ^ e - q := by linarith [hdl.1]
      rw [abs_of_nonneg a1, abs_of_nonneg a2]
      have := hdl.1
      norm_num at this ⊢
      linarith
    · have := scale (2 ^ 52)
      push_cast at this
      rw [abs_of_pos hpos] at hlow
      refine le_trans this ?_
      have a1 : (4503599627370496 : ℚ) * 2 ^ expo q - q ≤ 0 := by norm_num at hlow ⊢; linarith
      have a2 : (m : ℚ) * 2 ^ e - q ≤ 0 := by linarith [hdl.2]
      rw [abs_of_nonpos a1, abs_of_nonpos a2]
      have := hdl.2
      norm_num at this ⊢
      linarith

/-- Rounding keeps order. -/
lemma rnd_mono {x y : ℚ} (h : x ≤ y) : rnd x ≤ rnd y := by
  rcases eq_or_lt_of_le h with rfl | hlt
  · exact le_refl _
  by_contra hc
  push Not at hc
  have h1 := rnd_nearest x (isDouble_rnd y)
  have h2 := rnd_nearest y (isDouble_rnd x)
  have g1 : (rnd x + rnd y) / 2 ≤ x := by
    by_contra hx
    push Not at hx
    have : |rnd x - x| = rnd x - x := abs_of_pos (by linarith)
    rw [this] at h1
    rcases abs_cases (rnd y - x) with ⟨e, _⟩ | ⟨e, _⟩ <;> rw [e] at h1 <;> linarith
  have g2 : y ≤ (rnd x + rnd y) / 2 := by
    by_contra hx
    push Not at hx
    have : |rnd y - y| = y - rnd y := by rw [abs_sub_comm]; exact abs_of_pos (by linarith)
    rw [this] at h2
    rcases abs_cases (rnd x - y) with ⟨e, _⟩ | ⟨e, _⟩ <;> rw [e] at h2 <;> linarith
  linarith

/-- Whole multiples of a power of two, up to 2^53 of them, are doubles. -/
lemma isDouble_mul {m e : ℤ} (hm : |m| ≤ 2 ^ 53) (he : -1074 ≤ e) : IsDouble ((m : ℚ) * 2 ^ e) := ⟨m, e, hm, he, rfl⟩

lemma isDouble_int {m : ℤ} (hm : |m| ≤ 2 ^ 53) : IsDouble (m : ℚ) := ⟨m, 0, hm, by norm_num, by simp⟩

end ThermoFun.Double

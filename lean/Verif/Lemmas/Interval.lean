import Mathlib.Analysis.SpecialFunctions.Log.Basic
import Mathlib.Analysis.SpecialFunctions.Exp
import Mathlib.Analysis.Complex.Exponential
import Mathlib.Algebra.Order.Floor.Ring

/-!
# Interval arithmetic

A tool for proofs about concrete states: an interval is a pair of integers, multiples of `10^-130`.  `Enc x a`: the real number `x` lies in `a`, provided the
computation of `a` did not fail (`a.ok`).  The operations are computed by the kernel on integers.
-/

namespace ThermoFun

/-- The scale: 10^130. -/
def scl : ℕ := 10000000000000000000000000000000000000000000000000000000000000000000000000000000000000000000000000000000000000000000000000000000000

/-- An interval; `ok` is false if an operation failed. -/
structure Iv where
  lo : ℤ
  hi : ℤ
  ok : Bool

/-- `x` is in the interval. -/
def Enc (x : ℝ) (a : Iv) : Prop := a.ok = true → (a.lo : ℝ) ≤ x * (scl : ℝ) ∧ x * (scl : ℝ) ≤ (a.hi : ℝ)

lemma scl_pos : (0 : ℝ) < (scl : ℝ) := by unfold scl; norm_num

namespace Iv

/-- Failure. -/
def bad : Iv := ⟨0, 0, false⟩

/-- Rounding up. -/
def cdiv (a b : ℤ) : ℤ := -((-a) / b)

lemma cdiv_ge (a : ℤ) {b : ℤ} (hb : 0 < b) : (a : ℝ) / b ≤ (cdiv a b : ℝ) := by
  have hb' : (0 : ℝ) < b := by exact_mod_cast hb
  rw [div_le_iff₀ hb']
  have h := Int.ediv_mul_le (-a) hb.ne'
  have : a ≤ cdiv a b * b := by unfold cdiv; linarith
  exact_mod_cast this

lemma fdiv_le (a : ℤ) {b : ℤ} (hb : 0 < b) : ((a / b : ℤ) : ℝ) ≤ (a : ℝ) / b := by
  have hb' : (0 : ℝ) < b := by exact_mod_cast hb
  rw [le_div_iff₀ hb']
  have h := Int.ediv_mul_le a hb.ne'
  exact_mod_cast h

/-- A rational number. -/
def rat (q : ℚ) : Iv := ⟨q.num * scl / q.den, cdiv (q.num * scl) q.den, true⟩

/-- An integer. -/
def int (k : ℤ) : Iv := ⟨k * scl, k * scl, true⟩

/-- Sum. -/
def add (a b : Iv) : Iv := ⟨a.lo + b.lo, a.hi + b.hi, a.ok && b.ok⟩

/-- Negative. -/
def neg (a : Iv) : Iv := ⟨-a.hi, -a.lo, a.ok⟩

/-- Product. -/
def mul (a b : Iv) : Iv :=
  let p := a.lo * b.lo
  let q := a.lo * b.hi
  let r := a.hi * b.lo
  let s := a.hi * b.hi
  ⟨min (min p q) (min r s) / scl, cdiv (max (max p q) (max r s)) scl, a.ok && b.ok⟩

/-- Reciprocal. -/
def inv (a : Iv) : Iv :=
  if 0 < a.lo then ⟨(scl * scl : ℤ) / a.hi, cdiv (scl * scl) a.lo, a.ok && decide (0 < a.hi)⟩
  else if a.hi < 0 then ⟨-(cdiv (scl * scl) (-a.hi)), -((scl * scl : ℤ) / (-a.lo)), a.ok && decide (a.lo < 0)⟩
  else bad

instance : Add Iv := ⟨add⟩
instance : Neg Iv := ⟨neg⟩
instance : Sub Iv := ⟨fun a b => add a (neg b)⟩
instance : Mul Iv := ⟨mul⟩
instance : Div Iv := ⟨fun a b => mul a (inv b)⟩

/-- Power. -/
def npow (a : Iv) : ℕ → Iv
  | 0 => ⟨scl, scl, true⟩
  | n + 1 => mul (npow a n) a

instance : HPow Iv ℕ Iv := ⟨npow⟩

/-- Power with an integer exponent. -/
def zpow (a : Iv) : ℤ → Iv
  | .ofNat n => npow a n
  | .negSucc n => inv (npow a (n + 1))

instance : HPow Iv ℤ Iv := ⟨zpow⟩

end Iv

namespace Enc

open Iv

variable {x y : ℝ} {a b : Iv}

lemma rat (q : ℚ) : Enc (q : ℝ) (.rat q) := by
  intro _
  have hd : (0 : ℤ) < (q.den : ℤ) := by exact_mod_cast q.den_pos
  have e : (q : ℝ) * (scl : ℝ) = ((q.num * (scl : ℤ) : ℤ) : ℝ) / ((q.den : ℤ) : ℝ) := by
    rw [Rat.cast_def]; push_cast; ring
  rw [e]
  exact ⟨fdiv_le _ hd, cdiv_ge _ hd⟩

lemma int (k : ℤ) : Enc (k : ℝ) (.int k) := by
  intro _
  change ((k * (scl : ℤ) : ℤ) : ℝ) ≤ _ ∧ _ ≤ ((k * (scl : ℤ) : ℤ) : ℝ)
  push_cast
  exact ⟨le_rfl, le_rfl⟩

lemma lit (q : ℚ) (h : x = (q : ℝ)) : Enc x (.rat q) := h ▸ rat q

lemma add (ha : Enc x a) (hb : Enc y b) : Enc (x + y) (a + b) := by
  intro ho
  have ho' : (a.ok && b.ok) = true := ho
  rw [Bool.and_eq_true] at ho'
  obtain ⟨h1, h2⟩ := ha ho'.1
  obtain ⟨h3, h4⟩ := hb ho'.2
  change ((a.lo + b.lo : ℤ) : ℝ) ≤ _ ∧ _ ≤ ((a.hi + b.hi : ℤ) : ℝ)
  push_cast
  constructor <;> linarith

lemma neg (ha : Enc x a) : Enc (-x) (-a) := by
  intro ho
  obtain ⟨h1, h2⟩ := ha ho
  change ((-a.hi : ℤ) : ℝ) ≤ _ ∧ _ ≤ ((-a.lo : ℤ) : ℝ)
  push_cast
  constructor <;> linarith

lemma sub (ha : Enc x a) (hb : Enc y b) : Enc (x - y) (a - b) := by
  rw [sub_eq_add_neg]
  exact ha.add hb.neg

lemma mul_bounds {u v a1 a2 b1 b2 : ℝ} (h1 : a1 ≤ u) (h2 : u ≤ a2) (h3 : b1 ≤ v) (h4 : v ≤ b2) :
    min (min (a1 * b1) (a1 * b2)) (min (a2 * b1) (a2 * b2)) ≤ u * v ∧ u * v ≤ max (max (a1 * b1) (a1 * b2)) (max (a2 * b1) (a2 * b2)) := by
  constructor
  · rcases le_total 0 v with hv | hv
    · rcases le_total 0 a1 with ha | ha
      · exact (min_le_left _ _).trans ((min_le_left _ _).trans (by nlinarith))
      · exact (min_le_left _ _).trans ((min_le_right _ _).trans (by nlinarith))
    · rcases le_total 0 a2 with ha | ha
      · exact (min_le_right _ _).trans ((min_le_left _ _).trans (by nlinarith))
      · exact (min_le_right _ _).trans ((min_le_right _ _).trans (by nlinarith))
  · rcases le_total 0 v with hv | hv
    · rcases le_total 0 a2 with ha | ha
      · refine le_trans ?_ ((le_max_right _ _).trans (le_max_right _ _)); nlinarith
      · refine le_trans ?_ ((le_max_left _ _).trans (le_max_right _ _)); nlinarith
    · rcases le_total 0 a1 with ha | ha
      · refine le_trans ?_ ((le_max_right _ _).trans (le_max_left _ _)); nlinarith
      · refine le_trans ?_ ((le_max_left _ _).trans (le_max_left _ _)); nlinarith

lemma mul (ha : Enc x a) (hb : Enc y b) : Enc (x * y) (a * b) := by
  intro ho
  have ho' : (a.ok && b.ok) = true := ho
  rw [Bool.and_eq_true] at ho'
  obtain ⟨h1, h2⟩ := ha ho'.1
  obtain ⟨h3, h4⟩ := hb ho'.2
  obtain ⟨k1, k2⟩ := mul_bounds h1 h2 h3 h4
  have hs := scl_pos
  have hz : (0 : ℤ) < (scl : ℤ) := by exact_mod_cast hs
  have e : x * y * (scl : ℝ) = x * (scl : ℝ) * (y * (scl : ℝ)) / (scl : ℝ) := by field_simp
  rw [e]
  constructor
  · refine (fdiv_le _ hz).trans ?_
    push_cast
    exact div_le_div_of_nonneg_right k1 hs.le
  · refine le_trans ?_ (cdiv_ge _ hz)
    push_cast
    exact div_le_div_of_nonneg_right k2 hs.le

lemma inv (ha : Enc x a) : Enc x⁻¹ (Iv.inv a) := by
  have hs := scl_pos
  unfold Iv.inv
  split_ifs with h h'
  · intro ho
    rw [Bool.and_eq_true, decide_eq_true_eq] at ho
    obtain ⟨h1, h2⟩ := ha ho.1
    have hl : (0 : ℝ) < (a.lo : ℝ) := by exact_mod_cast h
    have hh : (0 : ℝ) < (a.hi : ℝ) := by exact_mod_cast ho.2
    have hx : 0 < x := by by_contra hn; nlinarith
    have e : x⁻¹ * (scl : ℝ) = (scl : ℝ) * (scl : ℝ) / (x * (scl : ℝ)) := by field_simp
    rw [e]
    constructor
    · refine (fdiv_le _ ho.2).trans ?_
      push_cast
      exact div_le_div_of_nonneg_left (by positivity) (by positivity) h2
    · refine le_trans ?_ (cdiv_ge _ h)
      push_cast
      exact div_le_div_of_nonneg_left (by positivity) hl h1
  · intro ho
    rw [Bool.and_eq_true, decide_eq_true_eq] at ho
    obtain ⟨h1, h2⟩ := ha ho.1
    have hl : (a.lo : ℝ) < 0 := by exact_mod_cast ho.2
    have hh : (a.hi : ℝ) < 0 := by exact_mod_cast h'
    have hx : x < 0 := by by_contra hn; push Not at hn; nlinarith
    have e : x⁻¹ * (scl : ℝ) = -((scl : ℝ) * (scl : ℝ) / (-(x * (scl : ℝ)))) := by field_simp
    rw [e]
    have hxs : x * (scl : ℝ) < 0 := by nlinarith
    constructor
    · push_cast
      refine neg_le_neg (le_trans ?_ (cdiv_ge _ (by linarith : (0 : ℤ) < -a.hi)))
      push_cast
      exact div_le_div_of_nonneg_left (by positivity) (by linarith) (by linarith)
    · push_cast
      refine neg_le_neg ((fdiv_le _ (by linarith [ho.2] : (0 : ℤ) < -a.lo)).trans ?_)
      push_cast
      exact div_le_div_of_nonneg_left (by positivity) (by linarith) (by linarith)
  · intro ho; exact absurd ho (by decide)

lemma div (ha : Enc x a) (hb : Enc y b) : Enc (x / y) (a / b) := by
  rw [div_eq_mul_inv]
  exact ha.mul hb.inv

lemma pow (ha : Enc x a) (n : ℕ) : Enc (x ^ n) (a ^ n) := by
  induction n with
  | zero => intro _; rw [pow_zero, one_mul]; exact ⟨by change (((scl : ℤ)) : ℝ) ≤ _; simp, by change _ ≤ (((scl : ℤ)) : ℝ); simp⟩
  | succ n ih => rw [pow_succ]; exact ih.mul ha

lemma zpow (ha : Enc x a) (n : ℤ) : Enc (x ^ n) (a ^ n) := by
  cases n with
  | ofNat n => rw [Int.ofNat_eq_natCast, zpow_natCast]; exact ha.pow n
  | negSucc n => rw [zpow_negSucc]; exact (ha.pow (n + 1)).inv

lemma bad : Enc x .bad := fun h => absurd h (by decide)

lemma congr (h : Enc x a) (e : y = x) : Enc y a := e ▸ h

lemma congr' (h : Enc x a) (e : b = a) : Enc x b := e ▸ h

/-- Reading off a bound. -/
lemma lt (ha : Enc x a) (hb : Enc y b) (h : (a.ok && b.ok && decide (a.hi < b.lo)) = true) : x < y := by
  simp only [Bool.and_eq_true, decide_eq_true_eq] at h
  obtain ⟨⟨h1, h2⟩, h3⟩ := h
  have k1 := (ha h1).2
  have k2 := (hb h2).1
  have h3' : (a.hi : ℝ) < b.lo := by exact_mod_cast h3
  exact lt_of_mul_lt_mul_right (by linarith) scl_pos.le

lemma lt_rat (q : ℚ) (ha : Enc x a) (h : (a.ok && decide (a.hi < (Iv.rat q).lo)) = true) : x < (q : ℝ) :=
  ha.lt (Enc.rat q) (by simpa [Iv.rat] using h)

lemma rat_lt (q : ℚ) (ha : Enc x a) (h : (a.ok && decide ((Iv.rat q).hi < a.lo)) = true) : (q : ℝ) < x :=
  (Enc.rat q).lt ha (by simpa [Iv.rat] using h)

/-- A decision. -/
lemma ite {p : Prop} [Decidable p] {c : Bool} (h : c = true → p) {h' : Bool} (h2 : h' = true → ¬p) (hx : Enc x a) (hy : Enc y b) :
    Enc (if p then x else y) (if c then a else if h' then b else .bad) := by
  cases hc : c
  · cases hh : h'
    · exact bad
    · rw [if_neg (h2 hh)]; exact hy
  · rw [if_pos (h hc)]; exact hx

end Enc

/-! ### The exponential function -/

namespace Iv

/-- Rounding up of a quotient of natural numbers. -/
def ncdiv (a b : ℕ) : ℕ := (a + b - 1) / b

/-- The terms and the partial sums of the exponential series, rounded by `r`. -/
def taylor (r : ℕ → ℕ → ℕ) (y : ℕ) : ℕ → ℕ × ℕ
  | 0 => (scl, 0)
  | n + 1 => let p := taylor r y n; (r (p.1 * y) (scl * (n + 1)), p.2 + p.1)

/-- Repeated squaring, rounded by `r`. -/
def squares (r : ℕ → ℕ → ℕ) (u : ℕ) : ℕ → ℕ
  | 0 => u
  | n + 1 => let p := squares r u n; r (p * p) scl

/-- The number of halvings that bring `y` to at most 1. -/
def halvings (y : ℕ) : ℕ := (y / scl).log2 + 1

/-- A lower bound of exp for arguments that are not negative. -/
def expLo (y : ℕ) : ℕ :=
  let k := halvings y
  squares (· / ·) (taylor (· / ·) (y / 2 ^ k) 90).2 k

/-- An upper bound of exp for arguments that are not negative (0 for failure). -/
def expHi (y : ℕ) : ℕ :=
  let k := halvings y
  let z := ncdiv y (2 ^ k)
  if z ≤ scl then
    let p := taylor ncdiv z 90
    squares ncdiv (p.2 + 2 * p.1) k
  else 0

/-- A lower bound of exp. -/
def expL : ℤ → ℤ
  | .ofNat n => expLo n
  | .negSucc n => let u := expHi (n + 1); if u = 0 then 0 else (scl * scl : ℕ) / u

/-- An upper bound of exp (0 for failure). -/
def expU : ℤ → ℤ
  | .ofNat n => expHi n
  | .negSucc n => let u := expLo (n + 1); if u = 0 then 0 else ncdiv (scl * scl) u

/-- The exponential function. -/
def exp (a : Iv) : Iv := ⟨expL a.lo, expU a.hi, a.ok && decide (0 < expU a.hi)⟩

lemma ncdiv_ge (a : ℕ) {b : ℕ} (hb : 0 < b) : (a : ℝ) / b ≤ (ncdiv a b : ℝ) := by
  have hb' : (0 : ℝ) < b := by exact_mod_cast hb
  rw [div_le_iff₀ hb']
  have : a ≤ ncdiv a b * b := by
    unfold ncdiv
    have h1 := Nat.div_add_mod (a + b - 1) b
    have h2 := Nat.mod_lt (a + b - 1) hb
    rw [mul_comm] at h1
    omega
  exact_mod_cast this

lemma ndiv_le (a b : ℕ) : ((a / b : ℕ) : ℝ) ≤ (a : ℝ) / b := Nat.cast_div_le

lemma taylor_lo (y n : ℕ) : ((taylor (· / ·) y n).1 : ℝ) ≤ scl * ((y / scl : ℝ) ^ n / n.factorial) ∧
    ((taylor (· / ·) y n).2 : ℝ) ≤ scl * ∑ i ∈ Finset.range n, (y / scl : ℝ) ^ i / i.factorial := by
  have hs := scl_pos
  induction n with
  | zero => simp [taylor]
  | succ n ih =>
    obtain ⟨h1, h2⟩ := ih
    constructor
    · change (((taylor (· / ·) y n).1 * y / (scl * (n + 1)) : ℕ) : ℝ) ≤ _
      refine (ndiv_le _ _).trans ?_
      push_cast [Nat.factorial_succ]
      rw [div_le_iff₀ (by positivity)]
      have : scl * ((y / scl : ℝ) ^ (n + 1) / ((n + 1) * n.factorial)) * (scl * (n + 1)) = scl * ((y / scl : ℝ) ^ n / n.factorial) * y := by
        rw [pow_succ]; field_simp
      rw [this]
      exact mul_le_mul_of_nonneg_right h1 (by positivity)
    · change (((taylor (· / ·) y n).2 + (taylor (· / ·) y n).1 : ℕ) : ℝ) ≤ _
      rw [Finset.sum_range_succ]
      push_cast
      linarith

lemma taylor_hi (y n : ℕ) : scl * ((y / scl : ℝ) ^ n / n.factorial) ≤ ((taylor ncdiv y n).1 : ℝ) ∧
    scl * ∑ i ∈ Finset.range n, (y / scl : ℝ) ^ i / i.factorial ≤ ((taylor ncdiv y n).2 : ℝ) := by
  have hs := scl_pos
  have hs' : 0 < scl := by exact_mod_cast hs
  induction n with
  | zero => simp [taylor]
  | succ n ih =>
    obtain ⟨h1, h2⟩ := ih
    constructor
    · change _ ≤ ((ncdiv ((taylor ncdiv y n).1 * y) (scl * (n + 1)) : ℕ) : ℝ)
      refine le_trans ?_ (ncdiv_ge _ (by positivity))
      push_cast [Nat.factorial_succ]
      rw [le_div_iff₀ (by positivity)]
      have : scl * ((y / scl : ℝ) ^ (n + 1) / ((n + 1) * n.factorial)) * (scl * (n + 1)) = scl * ((y / scl : ℝ) ^ n / n.factorial) * y := by
        rw [pow_succ]; field_simp
      rw [this]
      exact mul_le_mul_of_nonneg_right h1 (by positivity)
    · change _ ≤ (((taylor ncdiv y n).2 + (taylor ncdiv y n).1 : ℕ) : ℝ)
      rw [Finset.sum_range_succ]
      push_cast
      linarith

lemma squares_lo {u : ℕ} {x : ℝ} (hx : 0 ≤ x) (h : (u : ℝ) ≤ x * scl) (k : ℕ) : (squares (· / ·) u k : ℝ) ≤ x ^ 2 ^ k * scl := by
  have hs := scl_pos
  induction k with
  | zero => simpa [squares] using h
  | succ k ih =>
    change ((squares (· / ·) u k * squares (· / ·) u k / scl : ℕ) : ℝ) ≤ _
    refine (ndiv_le _ _).trans ?_
    rw [div_le_iff₀ hs, pow_succ 2 k, pow_mul x, pow_two]
    push_cast
    have : x ^ 2 ^ k * x ^ 2 ^ k * (scl : ℝ) * scl = (x ^ 2 ^ k * scl) * (x ^ 2 ^ k * scl) := by ring
    rw [this]
    exact mul_le_mul ih ih (by positivity) (by positivity)

lemma squares_hi {u : ℕ} {x : ℝ} (hx : 0 ≤ x) (h : x * scl ≤ (u : ℝ)) (k : ℕ) : x ^ 2 ^ k * scl ≤ (squares ncdiv u k : ℝ) := by
  have hs := scl_pos
  induction k with
  | zero => simpa [squares] using h
  | succ k ih =>
    change _ ≤ ((ncdiv (squares ncdiv u k * squares ncdiv u k) scl : ℕ) : ℝ)
    refine le_trans ?_ (ncdiv_ge _ (by exact_mod_cast hs))
    rw [le_div_iff₀ hs, pow_succ 2 k, pow_mul x, pow_two]
    push_cast
    have : x ^ 2 ^ k * x ^ 2 ^ k * (scl : ℝ) * scl = (x ^ 2 ^ k * scl) * (x ^ 2 ^ k * scl) := by ring
    rw [this]
    exact mul_le_mul ih ih (by positivity) (by positivity)

lemma expLo_le (y : ℕ) : (expLo y : ℝ) ≤ Real.exp (y / scl) * scl := by
  have hs := scl_pos
  unfold expLo
  dsimp only
  generalize halvings y = k
  have h1 := (taylor_lo (y / 2 ^ k) 90).2
  have hz : ((y / 2 ^ k : ℕ) : ℝ) / scl ≤ y / 2 ^ k / scl := by
    have := ndiv_le y (2 ^ k)
    push_cast at this
    exact div_le_div_of_nonneg_right this hs.le
  have h2 : ((taylor (· / ·) (y / 2 ^ k) 90).2 : ℝ) ≤ Real.exp (y / 2 ^ k / scl) * scl := by
    refine h1.trans ?_
    rw [mul_comm]
    refine mul_le_mul_of_nonneg_right ?_ hs.le
    exact (Real.sum_le_exp_of_nonneg (by positivity) 90).trans (Real.exp_le_exp.2 hz)
  have := squares_lo (Real.exp_pos _).le h2 k
  rw [← Real.exp_nat_mul] at this
  rwa [show ((2 ^ k : ℕ) : ℝ) * (y / 2 ^ k / scl) = y / scl by push_cast; field_simp] at this

lemma expHi_ge (y : ℕ) (h : expHi y ≠ 0) : Real.exp (y / scl) * scl ≤ (expHi y : ℝ) := by
  have hs := scl_pos
  revert h
  unfold expHi
  dsimp only
  generalize halvings y = k
  split_ifs with hz
  · intro _
    have h1 := taylor_hi (ncdiv y (2 ^ k)) 90
    have hz1 : y / 2 ^ k / scl ≤ (ncdiv y (2 ^ k) : ℝ) / scl := by
      have := ncdiv_ge y (b := 2 ^ k) (by positivity)
      push_cast at this
      exact div_le_div_of_nonneg_right this hs.le
    have hz2 : (ncdiv y (2 ^ k) : ℝ) / scl ≤ 1 := by
      rw [div_le_one hs]; exact_mod_cast hz
    have h2 : Real.exp (y / 2 ^ k / scl) * scl ≤ (((taylor ncdiv (ncdiv y (2 ^ k)) 90).2 + 2 * (taylor ncdiv (ncdiv y (2 ^ k)) 90).1 : ℕ) : ℝ) := by
      have h3 := Real.exp_bound' (by positivity) hz2 (n := 90) (by norm_num)
      have h4 : Real.exp (y / 2 ^ k / scl) ≤ Real.exp ((ncdiv y (2 ^ k) : ℝ) / scl) := Real.exp_le_exp.2 hz1
      push_cast
      have h5 : ((ncdiv y (2 ^ k) : ℝ) / scl) ^ 90 * ((90 : ℕ) + 1) / ((Nat.factorial 90 : ℕ) * (90 : ℕ)) ≤ 2 * (((ncdiv y (2 ^ k) : ℝ) / scl) ^ 90 / (Nat.factorial 90 : ℕ)) := by
        generalize hw : ((ncdiv y (2 ^ k) : ℝ) / scl) ^ 90 = w
        have hw0 : 0 ≤ w := by rw [← hw]; positivity
        have hf : (0 : ℝ) < (Nat.factorial 90 : ℕ) := by exact_mod_cast Nat.factorial_pos 90
        rw [div_le_iff₀ (by positivity)]
        have : 2 * (w / (Nat.factorial 90 : ℕ)) * ((Nat.factorial 90 : ℕ) * ((90 : ℕ) : ℝ)) = 180 * w := by
          push_cast; field_simp; ring
        rw [this]; push_cast; linarith
      have h6 : Real.exp (y / 2 ^ k / scl) * scl ≤ (∑ i ∈ Finset.range 90, ((ncdiv y (2 ^ k) : ℝ) / scl) ^ i / i.factorial +
          2 * (((ncdiv y (2 ^ k) : ℝ) / scl) ^ 90 / (Nat.factorial 90 : ℕ))) * scl :=
        mul_le_mul_of_nonneg_right (by linarith) hs.le
      refine h6.trans ?_
      rw [add_mul]
      have := h1.1
      have := h1.2
      linarith
    have := squares_hi (Real.exp_pos _).le h2 k
    rw [← Real.exp_nat_mul] at this
    rwa [show ((2 ^ k : ℕ) : ℝ) * (y / 2 ^ k / scl) = y / scl by push_cast; field_simp] at this
  · intro h; exact absurd rfl h

lemma expL_le (z : ℤ) : (expL z : ℝ) ≤ Real.exp (z / scl) * scl := by
  have hs := scl_pos
  cases z with
  | ofNat n =>
    have := expLo_le n
    change (((expLo n : ℕ) : ℤ) : ℝ) ≤ Real.exp (((n : ℤ) : ℝ) / scl) * scl
    push_cast; exact this
  | negSucc n =>
    unfold expL
    dsimp only
    split_ifs with h
    · push_cast; positivity
    · have h1 := expHi_ge (n + 1) h
      have hu : (0 : ℝ) < (expHi (n + 1) : ℝ) := by exact_mod_cast Nat.pos_of_ne_zero h
      have h2 : ((((scl * scl : ℕ) / expHi (n + 1) : ℕ) : ℤ) : ℝ) ≤ ((scl * scl : ℕ) : ℝ) / expHi (n + 1) := by
        exact_mod_cast ndiv_le (scl * scl) (expHi (n + 1))
      refine (show _ ≤ _ from h2).trans ?_
      have e : ((Int.negSucc n : ℤ) : ℝ) / scl = -(((n + 1 : ℕ) : ℝ) / scl) := by push_cast [Int.negSucc_eq]; ring
      rw [e, Real.exp_neg, div_le_iff₀ hu]
      push_cast
      have he := Real.exp_pos (((n + 1 : ℕ) : ℝ) / scl)
      push_cast at h1 he ⊢
      generalize Real.exp (((n : ℝ) + 1) / scl) = E at *
      have : (scl : ℝ) * scl = E⁻¹ * scl * (E * scl) := by field_simp
      rw [this]
      exact mul_le_mul_of_nonneg_left h1 (by positivity)

lemma expU_ge (z : ℤ) (h : 0 < expU z) : Real.exp (z / scl) * scl ≤ (expU z : ℝ) := by
  have hs := scl_pos
  cases z with
  | ofNat n =>
    have h0 : expHi n ≠ 0 := by
      intro h0
      have : expU (Int.ofNat n) = 0 := by change ((expHi n : ℕ) : ℤ) = 0; rw [h0]; rfl
      omega
    have := expHi_ge n h0
    change Real.exp (((n : ℤ) : ℝ) / scl) * scl ≤ (((expHi n : ℕ) : ℤ) : ℝ)
    push_cast; exact this
  | negSucc n =>
    revert h
    unfold expU
    dsimp only
    split_ifs with h0
    · intro h; exact absurd h (lt_irrefl _)
    · intro _
      have h1 := expLo_le (n + 1)
      have hu : (0 : ℝ) < (expLo (n + 1) : ℝ) := by exact_mod_cast Nat.pos_of_ne_zero h0
      have h2 : ((scl * scl : ℕ) : ℝ) / expLo (n + 1) ≤ ((ncdiv (scl * scl) (expLo (n + 1)) : ℕ) : ℝ) := ncdiv_ge _ (Nat.pos_of_ne_zero h0)
      refine le_trans ?_ (show _ ≤ _ from by exact_mod_cast h2)
      have e : ((Int.negSucc n : ℤ) : ℝ) / scl = -(((n + 1 : ℕ) : ℝ) / scl) := by push_cast [Int.negSucc_eq]; ring
      rw [e, Real.exp_neg, le_div_iff₀ hu]
      push_cast
      have he := Real.exp_pos (((n + 1 : ℕ) : ℝ) / scl)
      push_cast at h1 he ⊢
      generalize Real.exp (((n : ℝ) + 1) / scl) = E at *
      have : (scl : ℝ) * scl = E⁻¹ * scl * (E * scl) := by field_simp
      rw [this]
      exact mul_le_mul_of_nonneg_left h1 (by positivity)

end Iv

lemma Enc.exp {x : ℝ} {a : Iv} (h : Enc x a) : Enc (Real.exp x) (.exp a) := by
  have hs := scl_pos
  intro ho
  unfold Iv.exp at ho
  rw [Bool.and_eq_true, decide_eq_true_eq] at ho
  obtain ⟨h1, h2⟩ := h ho.1
  constructor
  · refine (Iv.expL_le _).trans (mul_le_mul_of_nonneg_right (Real.exp_le_exp.2 ?_) hs.le)
    rw [div_le_iff₀ hs]; exact h1
  · refine le_trans (mul_le_mul_of_nonneg_right (Real.exp_le_exp.2 ?_) hs.le) (Iv.expU_ge _ ho.2)
    rw [le_div_iff₀ hs]; exact h2

/-! ### The logarithm -/

namespace Iv

/-- Halley's iteration for the logarithm of `x`; its result is not trusted. -/
def logIter (x : ℤ) : ℕ → ℤ → ℤ
  | 0, y => y
  | n + 1, y => let e := expL y; logIter x n (y + 2 * (x - e) * scl / (x + e))

/-- An approximate logarithm. -/
def logApprox (x : ℤ) : ℤ :=
  logIter x 5 ((((x.toNat.log2 : ℤ) - (scl.log2 : ℤ)) * 6931471805599453094172321214581765680755001343602552541206800094933936000000000000000000000000000000000000000000000000000000000000))

/-- The logarithm: an approximation, widened, and verified with `exp`. -/
def log (a : Iv) : Iv :=
  let l := logApprox a.lo - 10000000000
  let u := logApprox a.hi + 10000000000
  ⟨l, u, a.ok && decide (0 < a.lo) && decide (0 < expU l) && decide (expU l ≤ a.lo) && decide (a.hi ≤ expL u)⟩

end Iv

set_option maxRecDepth 2000 in
lemma Enc.log {x : ℝ} {a : Iv} (h : Enc x a) : Enc (Real.log x) (.log a) := by
  have hs := scl_pos
  intro ho
  unfold Iv.log at ho ⊢
  simp only [Bool.and_eq_true, decide_eq_true_eq] at ho ⊢
  obtain ⟨⟨⟨⟨h0, h1⟩, h2⟩, h3⟩, h4⟩ := ho
  obtain ⟨k1, k2⟩ := h h0
  have hl : (0 : ℝ) < (a.lo : ℝ) := by exact_mod_cast h1
  have hx : 0 < x := by by_contra hn; nlinarith
  generalize Iv.logApprox a.lo - 10000000000 = l at *
  generalize Iv.logApprox a.hi + 10000000000 = u at *
  constructor
  · rw [← div_le_iff₀ hs, Real.le_log_iff_exp_le hx]
    have := Iv.expU_ge l h2
    have h3' : (Iv.expU l : ℝ) ≤ a.lo := by exact_mod_cast h3
    exact le_of_mul_le_mul_right (by linarith) hs
  · rw [← le_div_iff₀ hs, Real.log_le_iff_le_exp hx]
    have := Iv.expL_le u
    have h4' : (a.hi : ℝ) ≤ Iv.expL u := by exact_mod_cast h4
    exact le_of_mul_le_mul_right (by linarith) hs

/-- Closes goals `Enc x a` by the structure of `x`. -/
macro "enc" : tactic => `(tactic| repeat' first
  | with_reducible assumption | with_reducible apply Enc.rat | with_reducible apply Enc.add | with_reducible apply Enc.sub | with_reducible apply Enc.mul
  | with_reducible apply Enc.div | with_reducible apply Enc.neg | with_reducible apply Enc.exp | with_reducible apply Enc.log
  | with_reducible apply Enc.pow | with_reducible apply Enc.zpow | with_reducible apply Enc.int
  | (with_reducible apply Enc.lit; norm_num; done))

example : Real.exp 1 < 2.7182818284590452354 := by
  have h : Enc (Real.exp ((1 : ℚ) : ℝ)) (.exp (.rat 1)) := by enc
  have := h.lt_rat 2.7182818284590452354 (by decide +kernel)
  push_cast at this
  exact this

example : 0.69314718055994530 < Real.log 2 := by
  have h : Enc (Real.log ((2 : ℚ) : ℝ)) (.log (.rat 2)) := by enc
  have := h.rat_lt 0.69314718055994530 (by decide +kernel)
  push_cast at this
  exact this

end ThermoFun

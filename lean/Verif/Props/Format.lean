import Mathlib.Data.Nat.Digits.Lemmas
import Mathlib.Tactic.IntervalCases
import Verif.Model.Format
import Verif.Lemmas.Double
import Verif.Props.Doubles

/-! C152: what a result file says about a number. -/

namespace ThermoFun.Double

/-! ### Specification: reading decimal numbers -/

/-- A row of digits, the highest first. -/
def readDigits (l : List Char) : ℚ := l.foldl (fun a c => 10 * a + ((c.toNat : ℚ) - 48)) 0

/-- An unsigned decimal number: digits, or digits, a point and digits. -/
def readAbs (l : List Char) : Option ℚ :=
  let i := l.takeWhile Char.isDigit
  if i = [] then none
  else match l.dropWhile Char.isDigit with
    | [] => some (readDigits i)
    | c :: f => if c = '.' ∧ f ≠ [] ∧ f.all Char.isDigit = true then some (readDigits i + readDigits f / 10 ^ f.length)
      else none

/-- A decimal number with or without a minus sign. -/
def readDecimal : List Char → Option ℚ
  | '-' :: l => (readAbs l).map (fun y => -y)
  | l => readAbs l

/-! ### Lemmas -/

lemma digitC_isDigit {k : Nat} (h : k < 10) : (digitC k).isDigit = true ∧ (digitC k).toNat = 48 + k ∧ digitC k ≠ '-' := by
  interval_cases k <;> decide

lemma readDigits_reverse : ∀ (L : List Nat), (∀ k ∈ L, k < 10) →
    readDigits (L.reverse.map digitC) = (Nat.ofDigits 10 L : ℕ)
  | [], _ => by simp [readDigits]
  | k :: L, h => by
    have ih := readDigits_reverse L (fun j hj => h j (by simp [hj]))
    unfold readDigits at ih ⊢
    rw [List.reverse_cons, List.map_append, List.foldl_append, ih, Nat.ofDigits_cons]
    simp only [List.map_cons, List.map_nil, List.foldl_cons, List.foldl_nil]
    rw [(digitC_isDigit (h k (by simp))).2.1]
    push_cast; ring

lemma padded_lt {w n k : Nat} (h : k ∈ padded w n) : k < 10 := by
  rw [padded, List.mem_append] at h
  rcases h with h | h
  · exact Nat.digits_lt_base (by norm_num) h
  · rw [List.mem_replicate] at h; omega

lemma padded_length (w n : Nat) : w ≤ (padded w n).length := by
  rw [padded, List.length_append, List.length_replicate]; omega

lemma ofDigits_padded (w n : Nat) : Nat.ofDigits 10 (padded w n) = n := by
  rw [padded, Nat.ofDigits_append_replicate_zero, Nat.ofDigits_digits]

lemma takeWhile_digits : ∀ (l r : List Char), (∀ c ∈ l, c.isDigit = true) → (∀ c l', r = c :: l' → c.isDigit = false) →
    (l ++ r).takeWhile Char.isDigit = l ∧ (l ++ r).dropWhile Char.isDigit = r
  | [], r, _, hr => by
    cases r with
    | nil => simp
    | cons c l' => simp [hr c l' rfl]
  | c :: l, r, hl, hr => by
    have ih := takeWhile_digits l r (fun x hx => hl x (by simp [hx])) hr
    simp [hl c (by simp), ih.1, ih.2]

/-- The text of a number that is not negative, read back. -/
lemma readAbs_fixed (d n : Nat) :
    readAbs (((padded (d + 1) n).drop d).reverse.map digitC ++
      (if d = 0 then [] else '.' :: ((padded (d + 1) n).take d).reverse.map digitC)) = some ((n : ℚ) / 10 ^ d) := by
  set L := padded (d + 1) n with hL
  have hlen : d + 1 ≤ L.length := padded_length _ _
  have hlt : ∀ k ∈ L, k < 10 := fun k hk => padded_lt hk
  have hd : ∀ k ∈ L.drop d, k < 10 := fun k hk => hlt k (List.mem_of_mem_drop hk)
  have ht : ∀ k ∈ L.take d, k < 10 := fun k hk => hlt k (List.mem_of_mem_take hk)
  have hdig : ∀ (M : List Nat), (∀ k ∈ M, k < 10) → ∀ c ∈ M.reverse.map digitC, c.isDigit = true := by
    intro M hM c hc
    simp only [List.mem_map, List.mem_reverse] at hc
    obtain ⟨k, hk, rfl⟩ := hc
    exact (digitC_isDigit (hM k hk)).1
  have hne : (L.drop d).reverse.map digitC ≠ [] := by
    intro h
    have := congrArg List.length h
    simp only [List.length_map, List.length_reverse, List.length_drop, List.length_nil] at this
    omega
  have hsum : Nat.ofDigits 10 (L.take d) + 10 ^ d * Nat.ofDigits 10 (L.drop d) = n := by
    have h1 := Nat.ofDigits_append (b := 10) (l1 := L.take d) (l2 := L.drop d)
    rw [List.take_append_drop, hL, ofDigits_padded, ← hL] at h1
    rw [h1, List.length_take, min_eq_left (by omega)]
  have hp : (10 : ℚ) ^ d ≠ 0 := by positivity
  by_cases h0 : d = 0
  · subst h0
    rw [if_pos rfl]
    have hw := takeWhile_digits _ [] (hdig _ hd) (by simp)
    unfold readAbs
    simp only [hw.1, hw.2, hne, if_false]
    rw [readDigits_reverse _ hd]
    simp only [List.take_zero, Nat.ofDigits_nil, pow_zero, one_mul, zero_add] at hsum
    rw [hsum]; simp
  · rw [if_neg h0]
    have hw := takeWhile_digits ((L.drop d).reverse.map digitC) ('.' :: (L.take d).reverse.map digitC) (hdig _ hd) (by
      intro c l' h
      rw [List.cons.injEq] at h
      rw [← h.1]; decide)
    unfold readAbs
    simp only [hw.1, hw.2, hne, if_false]
    have hlt' : (L.take d).length = d := by rw [List.length_take]; omega
    have hfne : (L.take d).reverse.map digitC ≠ [] := by
      intro h
      have := congrArg List.length h
      simp only [List.length_map, List.length_reverse, hlt', List.length_nil] at this
      exact h0 this
    have hall : ((L.take d).reverse.map digitC).all Char.isDigit = true := List.all_eq_true.mpr (hdig _ ht)
    simp only [true_and]
    rw [if_pos ⟨hfne, hall⟩, readDigits_reverse _ hd, readDigits_reverse _ ht]
    simp only [List.length_map, List.length_reverse, hlt', Option.some.injEq]
    rw [← hsum]
    push_cast
    field_simp
    ring

lemma roundEven_nonneg {x : ℚ} (h : 0 ≤ x) : 0 ≤ roundEven x := by
  have : 0 ≤ ⌊x⌋ := Int.floor_nonneg.mpr h
  rcases roundEven_cases x with ⟨h, _⟩ | ⟨h, _⟩ <;> rw [h] <;> omega

/-- What is read back from the text of a number. -/
lemma read_fixed (d : Nat) (x : ℚ) : readDecimal (fixed d x) =
    some ((if x < 0 then -1 else 1) * (roundEven (|x| * 10 ^ d) : ℚ) / 10 ^ d) := by
  have hnn : 0 ≤ roundEven (|x| * 10 ^ d) := roundEven_nonneg (by positivity)
  have hc : ((roundEven (|x| * 10 ^ d)).toNat : ℚ) = roundEven (|x| * 10 ^ d) := by
    have := Int.toNat_of_nonneg hnn
    exact_mod_cast congrArg (Int.cast (R := ℚ)) this
  have h := readAbs_fixed d (roundEven (|x| * 10 ^ d)).toNat
  rw [hc] at h
  unfold fixed
  simp only [List.append_assoc]
  by_cases hx : x < 0
  · rw [if_pos hx, if_pos hx]
    rw [List.cons_append, List.nil_append]
    change (readAbs _).map _ = _
    rw [h]
    simp only [Option.map_some, Option.some.injEq]
    ring
  · rw [if_neg hx, if_neg hx, List.nil_append]
    have hfirst : ∀ l : List Char, (∀ l', l ≠ '-' :: l') → readDecimal l = readAbs l := by
      intro l hl
      unfold readDecimal
      split
      · exact absurd rfl (hl _)
      · rfl
    rw [hfirst, h, one_mul]
    intro l' hl'
    set L := padded (d + 1) (roundEven (|x| * 10 ^ d)).toNat with hL
    have hlen : d + 1 ≤ L.length := padded_length _ _
    have hd : ∀ k ∈ (L.drop d).reverse, k < 10 := fun k hk =>
      padded_lt (List.mem_of_mem_drop (List.mem_reverse.mp hk))
    cases hM : (L.drop d).reverse with
    | nil =>
      have := congrArg List.length hM
      simp only [List.length_reverse, List.length_drop, List.length_nil] at this
      omega
    | cons k M =>
      rw [hM] at hl'
      simp only [List.map_cons, List.cons_append, List.cons.injEq] at hl'
      exact (digitC_isDigit (hd k (by rw [hM]; simp))).2.2 hl'.1

/-! ### C152 -/

/-- **C152 (part).** Full statement: a number read from a result file is the number calculated, to a relative error small
enough to use it.  Proved: it is a decimal number, has the number of digits asked for, and differs from the calculated number
by half a unit of the last of them at most, for all numbers and all numbers of digits.
Missing: a relative error; there is none, below. -/
theorem C152_partial (d : Nat) (x : ℚ) : ∃ y, readDecimal (fixed d x) = some y ∧ |y - x| ≤ 1 / (2 * 10 ^ d) ∧
    ∃ m : ℤ, y = m / 10 ^ d := by
  refine ⟨_, read_fixed d x, ?_, ?_⟩
  · have hp : (0 : ℚ) < 10 ^ d := by positivity
    have h := roundEven_err (|x| * 10 ^ d)
    set r : ℚ := (roundEven (|x| * 10 ^ d) : ℚ) with hr
    have h2 : |r / 10 ^ d - (|x|)| ≤ 1 / (2 * 10 ^ d) := by
      have e : r / 10 ^ d - |x| = (r - |x| * 10 ^ d) / 10 ^ d := by field_simp
      rw [e, abs_div, abs_of_pos hp, div_le_div_iff₀ hp (by positivity)]
      nlinarith
    by_cases hx : x < 0
    · rw [if_pos hx]
      rw [abs_of_neg hx] at h2
      have e : -1 * r / 10 ^ d - x = -(r / 10 ^ d - -x) := by ring
      rw [e, abs_neg]; exact h2
    · rw [if_neg hx]
      rw [abs_of_nonneg (not_lt.mp hx)] at h2
      rw [one_mul]; exact h2
  · by_cases hx : x < 0
    · exact ⟨-roundEven (|x| * 10 ^ d), by rw [if_pos hx]; push_cast; ring⟩
    · exact ⟨roundEven (|x| * 10 ^ d), by rw [if_neg hx, one_mul]⟩

/-- Two numbers written. -/
example : fixed 3 (-12.3456) = "-12.346".toList ∧ fixed 0 (-856288) = "-856288".toList := by decide +kernel

/-- **C152, violation (temperature).** With the default of one digit the temperature 298.15 K stands in the file as 298.1,
as do 298.11 K and 298.14 K: the rows cannot be told apart. -/
theorem C152_temperature_refuted : fixed 1 (rnd 298.15) = "298.1".toList ∧ fixed 1 (rnd 298.11) = "298.1".toList ∧
    fixed 1 (rnd 298.14) = "298.1".toList := by decide +kernel

/-- **C152, violation (small numbers).** The digits are places after the point, and setting a unit does not change them:
every number below half a unit of the last digit is written as zero.  With the default of three digits for volumes, every
volume below 0.0005 (22.7 cm³ in m³, for instance) is written as 0.000. -/
theorem C152_small_refuted (d : Nat) (x : ℚ) (h0 : 0 ≤ x) (h : x * 10 ^ d < 1 / 2) :
    readDecimal (fixed d x) = some 0 := by
  rw [read_fixed, if_neg (not_lt.mpr h0), abs_of_nonneg h0]
  have hx : 0 ≤ x * 10 ^ d := by positivity
  have hf : ⌊x * 10 ^ d⌋ = 0 := Int.floor_eq_zero_iff.mpr ⟨hx, by linarith⟩
  have : roundEven (x * 10 ^ d) = 0 := by
    unfold roundEven
    rw [hf, if_pos (by push_cast; linarith)]
  rw [this]; simp

/-- The volume of quartz in cubic metres. -/
example : (0 : ℚ) ≤ 0.000022688 ∧ (0.000022688 : ℚ) * 10 ^ 3 < 1 / 2 ∧ fixed 3 0.000022688 = "0.000".toList := by
  refine ⟨by norm_num, by norm_num, by decide +kernel⟩

/-- **C152 (order).** A larger number never stands in the file as a smaller one. -/
theorem C152_order (d : Nat) (x y : ℚ) (h : x ≤ y) : ∃ a b, readDecimal (fixed d x) = some a ∧
    readDecimal (fixed d y) = some b ∧ a ≤ b := by
  refine ⟨_, _, read_fixed d x, read_fixed d y, ?_⟩
  have hp : (0 : ℚ) < 10 ^ d := by positivity
  have mono : ∀ a b : ℚ, a ≤ b → roundEven a ≤ roundEven b := by
    intro a b hab
    by_contra hc
    push Not at hc
    have hc' : (roundEven b : ℚ) + 1 ≤ roundEven a := by exact_mod_cast hc
    have h1 := abs_le.mp (roundEven_err a)
    have h2 := abs_le.mp (roundEven_err b)
    have e : a = b := by linarith [h1.2, h2.1]
    rw [e] at hc
    exact lt_irrefl _ hc
  have nn : ∀ z : ℚ, (0 : ℚ) ≤ (roundEven (|z| * 10 ^ d) : ℚ) := fun z => by
    exact_mod_cast roundEven_nonneg (by positivity : 0 ≤ |z| * 10 ^ d)
  rw [div_le_div_iff_of_pos_right hp]
  by_cases hx : x < 0
  · rw [if_pos hx]
    by_cases hy : y < 0
    · rw [if_pos hy]
      have : roundEven (|y| * 10 ^ d) ≤ roundEven (|x| * 10 ^ d) := by
        apply mono
        rw [abs_of_neg hx, abs_of_neg hy]
        exact mul_le_mul_of_nonneg_right (by linarith) hp.le
      have : (roundEven (|y| * 10 ^ d) : ℚ) ≤ roundEven (|x| * 10 ^ d) := by exact_mod_cast this
      linarith
    · rw [if_neg hy]
      linarith [nn x, nn y]
  · have hy : ¬ y < 0 := by linarith
    rw [if_neg hx, if_neg hy]
    have : roundEven (|x| * 10 ^ d) ≤ roundEven (|y| * 10 ^ d) := by
      apply mono
      rw [abs_of_nonneg (not_lt.mp hx), abs_of_nonneg (not_lt.mp hy)]
      exact mul_le_mul_of_nonneg_right h hp.le
    have : (roundEven (|x| * 10 ^ d) : ℚ) ≤ roundEven (|y| * 10 ^ d) := by exact_mod_cast this
    linarith

/-- Two temperatures. -/
example : (298.11 : ℚ) ≤ 298.15 := by norm_num

/-- **C152 (cells).** With the default separator the text of a number is one cell: it holds no comma and no line end. -/
theorem C152_cell (d : Nat) (x : ℚ) : ',' ∉ fixed d x ∧ '\n' ∉ fixed d x := by
  have hc : ∀ c ∈ fixed d x, c.isDigit = true ∨ c = '-' ∨ c = '.' := by
    intro c hc
    unfold fixed at hc
    simp only [List.mem_append] at hc
    have hdig : ∀ (M : List Nat), (∀ k ∈ M, k < 10) → ∀ c ∈ M.reverse.map digitC, c.isDigit = true := by
      intro M hM c hc
      simp only [List.mem_map, List.mem_reverse] at hc
      obtain ⟨k, hk, rfl⟩ := hc
      exact (digitC_isDigit (hM k hk)).1
    rcases hc with (hc | hc) | hc
    · split at hc
      · simp only [List.mem_singleton] at hc; exact Or.inr (Or.inl hc)
      · simp at hc
    · exact Or.inl (hdig _ (fun k hk => padded_lt (List.mem_of_mem_drop hk)) c hc)
    · split at hc
      · simp at hc
      · rw [List.mem_cons] at hc
        rcases hc with hc | hc
        · exact Or.inr (Or.inr hc)
        · exact Or.inl (hdig _ (fun k hk => padded_lt (List.mem_of_mem_take hk)) c hc)
  constructor
  · intro h
    rcases hc _ h with h | h | h <;> revert h <;> decide
  · intro h
    rcases hc _ h with h | h | h <;> revert h <;> decide

/-- A text with sign and point. -/
example : ',' ∉ fixed 2 (-1234567.891) := by decide +kernel

end ThermoFun.Double

import Verif.Props.SubstanceP

/-!
Properties C29 to C32: integration of an empirical heat capacity over several temperature intervals.
-/

set_option linter.unusedSimpArgs false

namespace ThermoFun

/-! ### The integrals of one interval -/

/-- The heat capacity function of ten coefficients, J/(mol K). -/
noncomputable def cpPoly (c : ℕ → ℝ) (t : ℝ) : ℝ :=
  c 0 + c 1 * t + c 2 / t ^ 2 + c 3 / √t + c 4 * t ^ 2 + c 5 * t ^ 3 + c 6 * t ^ 4 + c 7 / t ^ 3 + c 8 / t + c 9 * √t

lemma val_powR_zero (x : TS) : (TS.powR x 0).val = 1 := by simp

lemma empCp_val (c : AC) (t : ℝ) : (empCp c (TS.temperature t)).val = cpPoly c t - c 9 * √t + c 9 := by
  simp only [empCp, cpPoly, TS.op_val_add, TS.op_val_addL, TS.op_val_addR, TS.op_val_mul, TS.op_val_mulL, TS.op_val_div, TS.op_val_divL,
    TS.val_temperature, TS.val_powR, Real.rpow_zero, Real.sqrt_eq_rpow]
  norm_num
  ring

lemma sqrt_half (t : ℝ) : t ^ (0.5 : ℝ) = √t := by rw [Real.sqrt_eq_rpow]; norm_num

lemma hasDerivAt_inv_pow (a t : ℝ) (n : ℕ) (ht : t ≠ 0) : HasDerivAt (fun x => a / x ^ n) (-(n * a / t ^ (n + 1))) t := by
  have := (hasDerivAt_const t a).div (hasDerivAt_pow n t) (pow_ne_zero n ht)
  refine this.congr_deriv ?_
  rcases n with _ | n
  · simp
  · simp only [Nat.add_sub_cancel]
    field_simp
    ring

lemma emp_val_H (c : AC) (t t0 : ℝ) : (empH c (TS.temperature t) t0).val =
    c 0 * (t - t0) + c 1 * (t ^ 2 - t0 ^ 2) / 2 + c 2 * (1 / t0 - 1 / t) + c 3 * 2 * (√t - √t0) + c 4 * (t ^ 3 - t0 ^ 3) / 3
      + c 5 * (t ^ 4 - t0 ^ 4) / 4 + c 6 * (t ^ 5 - t0 ^ 5) / 5 + c 7 * (1 / t0 ^ 2 - 1 / t ^ 2) / 2 + c 8 * Real.log (t / t0)
      + c 9 * 2 * (t * √t - t0 * √t0) / 3 := by
  simp only [empH, TS.op_val_add, TS.op_val_sub, TS.op_val_subL, TS.op_val_subR, TS.op_val_mul, TS.op_val_mulL, TS.op_val_mulR, TS.op_val_div, TS.op_val_divL,
    TS.op_val_divR, TS.val_temperature, TS.val_powR, TS.val_log, sqrt_half, Real.rpow_ofNat]
  ring

lemma emp_val_S (c : AC) (t t0 : ℝ) : (empS c (TS.temperature t) t0).val =
    c 0 * Real.log (t / t0) + c 1 * (t - t0) + c 2 * (1 / t0 ^ 2 - 1 / t ^ 2) / 2 + c 3 * 2 * (1 / √t0 - 1 / √t) + c 4 * (t ^ 2 - t0 ^ 2) / 2
      + c 5 * (t ^ 3 - t0 ^ 3) / 3 + c 6 * (t ^ 4 - t0 ^ 4) / 4 + c 7 * (1 / t0 ^ 3 - 1 / t ^ 3) / 3 + c 8 * (1 / t0 - 1 / t)
      + c 9 * 2 * (√t - √t0) := by
  simp only [empS, TS.op_val_add, TS.op_val_sub, TS.op_val_subL, TS.op_val_subR, TS.op_val_mul, TS.op_val_mulL, TS.op_val_mulR, TS.op_val_div, TS.op_val_divL,
    TS.op_val_divR, TS.val_temperature, TS.val_powR, TS.val_log, sqrt_half, Real.rpow_ofNat]
  ring

lemma emp_val_G (c : AC) (t t0 : ℝ) (ht : 0 < t) (h0 : 0 < t0) : (empG c (TS.temperature t) t0).val =
    t * (empS c (TS.temperature t) t0).val - (empH c (TS.temperature t) t0).val := by
  rw [emp_val_S, emp_val_H]
  simp only [empG, TS.op_val_add, TS.op_val_addL, TS.op_val_addR, TS.op_val_sub, TS.op_val_subL, TS.op_val_subR, TS.op_val_mul, TS.op_val_mulL, TS.op_val_mulR, TS.op_val_div, TS.op_val_divL,
    TS.op_val_divR, TS.val_temperature, TS.val_powR, TS.val_log, sqrt_half, Real.rpow_ofNat]
  obtain ⟨s, hs, rfl⟩ : ∃ s, 0 < s ∧ t = s ^ 2 := ⟨√t, Real.sqrt_pos.2 ht, (Real.sq_sqrt ht.le).symm⟩
  obtain ⟨u, hu, rfl⟩ : ∃ s, 0 < s ∧ t0 = s ^ 2 := ⟨√t0, Real.sqrt_pos.2 h0, (Real.sq_sqrt h0.le).symm⟩
  rw [Real.sqrt_sq hs.le, Real.sqrt_sq hu.le]
  generalize Real.log (s ^ 2 / u ^ 2) = l
  field_simp
  ring

lemma emp_self (c : AC) (t : ℝ) (ht : 0 < t) : (empH c (TS.temperature t) t).val = 0 ∧ (empS c (TS.temperature t) t).val = 0 ∧
    (empG c (TS.temperature t) t).val = 0 := by
  have h1 : (empH c (TS.temperature t) t).val = 0 := by rw [emp_val_H, div_self ht.ne', Real.log_one]; ring
  have h2 : (empS c (TS.temperature t) t).val = 0 := by rw [emp_val_S, div_self ht.ne', Real.log_one]; ring
  exact ⟨h1, h2, by rw [emp_val_G c t t ht ht, h1, h2]; ring⟩

lemma emp_deriv (c : AC) (t t0 : ℝ) (ht : 0 < t) (h0 : 0 < t0) :
    HasDerivAt (fun x => (empH c (TS.temperature x) t0).val) (cpPoly c t) t ∧
    HasDerivAt (fun x => (empS c (TS.temperature x) t0).val) (cpPoly c t / t) t ∧
    HasDerivAt (fun x => (empG c (TS.temperature x) t0).val) ((empS c (TS.temperature t) t0).val) t := by
  have hid := hasDerivAt_id' t
  have ht' := ht.ne'
  have hs : HasDerivAt (fun x : ℝ => √x) (1 / (2 * √t)) t := Real.hasDerivAt_sqrt ht'
  have hs0 : √t ≠ 0 := (Real.sqrt_pos.2 ht).ne'
  have hl : HasDerivAt (fun x : ℝ => Real.log (x / t0)) (1 / t) t := by
    refine ((hid.div_const t0).log (by positivity)).congr_deriv ?_
    field_simp
  have hp := fun n => hasDerivAt_pow n t
  have hi := fun n => hasDerivAt_inv_pow 1 t n ht'
  have hi1 : HasDerivAt (fun x : ℝ => 1 / x) (-(1 / t ^ 2)) t := by simpa using hi 1
  have hH : HasDerivAt (fun x => (empH c (TS.temperature x) t0).val) (cpPoly c t) t := by
    simp only [emp_val_H]
    have := (((((((((((hid.sub_const t0).const_mul (c 0)).add ((((hp 2).sub_const (t0 ^ 2)).const_mul (c 1)).div_const 2)).add
      ((hi1.const_sub (1 / t0)).const_mul (c 2))).add ((hs.sub_const (√t0)).const_mul (c 3 * 2))).add
      ((((hp 3).sub_const (t0 ^ 3)).const_mul (c 4)).div_const 3)).add
      ((((hp 4).sub_const (t0 ^ 4)).const_mul (c 5)).div_const 4)).add
      ((((hp 5).sub_const (t0 ^ 5)).const_mul (c 6)).div_const 5)).add
      ((((hi 2).const_sub (1 / t0 ^ 2)).const_mul (c 7)).div_const 2)).add (hl.const_mul (c 8))).add
      ((((hid.mul hs).sub_const (t0 * √t0)).const_mul (c 9 * 2)).div_const 3))
    refine this.congr_deriv ?_
    simp only [cpPoly]
    push_cast
    obtain ⟨s, hsp, rfl⟩ : ∃ s, 0 < s ∧ t = s ^ 2 := ⟨√t, Real.sqrt_pos.2 ht, (Real.sq_sqrt ht.le).symm⟩
    rw [Real.sqrt_sq hsp.le]
    field_simp
    ring
  have hS : HasDerivAt (fun x => (empS c (TS.temperature x) t0).val) (cpPoly c t / t) t := by
    simp only [emp_val_S]
    have hsi : HasDerivAt (fun x : ℝ => 1 / √x) (-(1 / (2 * √t)) / (√t) ^ 2) t :=
      ((hasDerivAt_const t (1 : ℝ)).div hs hs0).congr_deriv (by ring)
    have := ((((((((((hl.const_mul (c 0)).add ((hid.sub_const t0).const_mul (c 1))).add
      ((((hi 2).const_sub (1 / t0 ^ 2)).const_mul (c 2)).div_const 2)).add
      ((hsi.const_sub (1 / √t0)).const_mul (c 3 * 2))).add
      ((((hp 2).sub_const (t0 ^ 2)).const_mul (c 4)).div_const 2)).add
      ((((hp 3).sub_const (t0 ^ 3)).const_mul (c 5)).div_const 3)).add
      ((((hp 4).sub_const (t0 ^ 4)).const_mul (c 6)).div_const 4)).add
      ((((hi 3).const_sub (1 / t0 ^ 3)).const_mul (c 7)).div_const 3)).add
      ((hi1.const_sub (1 / t0)).const_mul (c 8))).add ((hs.sub_const (√t0)).const_mul (c 9 * 2)))
    refine this.congr_deriv ?_
    simp only [cpPoly]
    push_cast
    obtain ⟨s, hsp, rfl⟩ : ∃ s, 0 < s ∧ t = s ^ 2 := ⟨√t, Real.sqrt_pos.2 ht, (Real.sq_sqrt ht.le).symm⟩
    rw [Real.sqrt_sq hsp.le]
    field_simp
  refine ⟨hH, hS, ?_⟩
  have := (hid.mul hS).sub hH
  refine (this.congr_deriv ?_).congr_of_eventuallyEq ?_
  · field_simp; ring
  · filter_upwards [lt_mem_nhds ht] with x hx
    rw [emp_val_G c x t0 hx h0]
    rfl

lemma emp_congr (c c' : AC) (h : ∀ i < 10, c i = c' i) (x : TS) (t0 : ℝ) :
    empH c x t0 = empH c' x t0 ∧ empS c x t0 = empS c' x t0 ∧ empG c x t0 = empG c' x t0 ∧ empCp c x = empCp c' x := by
  simp only [empH, empS, empG, empCp, h 0 (by omega), h 1 (by omega), h 2 (by omega), h 3 (by omega), h 4 (by omega), h 5 (by omega), h 6 (by omega),
    h 7 (by omega), h 8 (by omega), h 9 (by omega), and_self]

/-! ### Tables of adjoining intervals -/

/-- A record with `n` adjoining temperature intervals [b j, b (j+1)], each with its coefficients, and a transition at each inner bound. -/
structure CpTable where
  n : ℕ
  b : ℕ → ℝ
  c : ℕ → List ℝ
  dS : ℕ → ℝ
  dH : ℕ → ℝ
  dV : ℕ → ℝ

/-- The record as the database stores it. -/
noncomputable def CpTable.data (t : CpTable) (Tr : ℝ) (ref pt : TPS) : CpData where
  coef := (List.range t.n).map t.c
  intervals := (List.range t.n).map fun j => [t.b j, t.b (j + 1)]
  trans := (List.range (t.n - 1)).map fun j => [t.b (j + 1), t.dS j, t.dH j, t.dV j]
  Tr := Tr
  ref := ref
  pt := pt

/-- Increasing positive bounds and coefficient lists of one length. -/
structure CpTable.Ok (t : CpTable) : Prop where
  pos : 0 < t.n
  low : 0 < t.b 0
  mono : StrictMono t.b
  len : ∃ L, ∀ j < t.n, (t.c j).length = L

/-- The coefficients of interval `j`, absent ones zero. -/
noncomputable def CpTable.coefs (t : CpTable) (j : ℕ) : ℕ → ℝ := fun i => (t.c j).getD i 0

/-- Interval `k` is in force at temperature `T`: inside it, or below the first, or above the last. -/
def CpTable.At (t : CpTable) (T : ℝ) (k : ℕ) : Prop :=
  k < t.n ∧ ((t.b k ≤ T ∧ T < t.b (k + 1)) ∨ (k = 0 ∧ T < t.b 0) ∨ (k + 1 = t.n ∧ t.b t.n < T))

lemma search_tbl (b : ℕ → ℝ) (T : ℝ) (m i : ℕ) (k : ℕ) (hk : i ≤ k ∧ k < i + m) (hb : StrictMono b) (h1 : b k ≤ T) (h2 : T < b (k + 1)) :
    searchGo T ((List.range' i m).map fun j => [b j, b (j + 1)]) i none = .ok (some k) := by
  induction m generalizing i with
  | zero => omega
  | succ m ih =>
    rw [List.range'_succ, List.map_cons, searchGo]
    by_cases hik : i = k
    · subst hik
      rw [if_pos ⟨h1, h2⟩]
    · rw [if_neg, ih (i + 1) (by omega)]
      rintro ⟨-, h⟩
      have : b (i + 1) ≤ b k := hb.monotone (by omega)
      linarith

lemma search_none (b : ℕ → ℝ) (T : ℝ) (m i : ℕ) (h : ∀ j, i ≤ j → j < i + m → ¬ (b j ≤ T ∧ T < b (j + 1))) :
    searchGo T ((List.range' i m).map fun j => [b j, b (j + 1)]) i none = .ok none := by
  induction m generalizing i with
  | zero => simp [searchGo]
  | succ m ih =>
    rw [List.range'_succ, List.map_cons, searchGo, if_neg (h i (le_refl i) (by omega)), ih (i + 1)]
    intro j h1 h2
    exact h j (by omega) (by omega)

lemma select_tbl (t : CpTable) (ht : t.Ok) (T : ℝ) (k : ℕ) (h : t.At T k) :
    selectInterval T ((List.range t.n).map fun j => [t.b j, t.b (j + 1)]) = .ok k := by
  obtain ⟨hk, h⟩ := h
  have hn := ht.pos
  have hlast : ((List.range t.n).map fun j => [t.b j, t.b (j + 1)]).getLast? = some [t.b (t.n - 1), t.b t.n] := by
    obtain ⟨m, hm⟩ : ∃ m, t.n = m + 1 := ⟨t.n - 1, by omega⟩
    rw [hm, List.range_succ, List.map_append]
    simp
  have hhead : ((List.range t.n).map fun j => [t.b j, t.b (j + 1)]).head? = some [t.b 0, t.b 1] := by
    obtain ⟨m, hm⟩ : ∃ m, t.n = m + 1 := ⟨t.n - 1, by omega⟩
    rw [hm, List.range_succ_eq_map]
    simp
  have hsel : ∀ j, 0 < j → t.b 0 < t.b j := fun j hj => ht.mono hj
  rcases h with ⟨h1, h2⟩ | ⟨rfl, h⟩ | ⟨h1, h⟩
  · have := search_tbl t.b T t.n 0 k (by omega) ht.mono h1 h2
    rw [← List.range_eq_range'] at this
    simp only [selectInterval, this, Res.ok_bind]
  · have := search_none t.b T t.n 0 (by
      rintro j - - ⟨h1, -⟩
      have : t.b 0 ≤ t.b j := ht.mono.monotone (Nat.zero_le j)
      linarith)
    rw [← List.range_eq_range'] at this
    simp only [selectInterval, this, Res.ok_bind, hhead, hlast]
    rw [if_neg, if_pos h.le]
    have := hsel t.n hn
    linarith
  · have := search_none t.b T t.n 0 (by
      rintro j - hj ⟨-, h2⟩
      have : t.b (j + 1) ≤ t.b t.n := ht.mono.monotone (by omega)
      linarith)
    rw [← List.range_eq_range'] at this
    simp only [selectInterval, this, Res.ok_bind, hhead, hlast]
    rw [if_pos h]
    simp
    omega

/-! ### The running totals -/

/-- S, G, H, V. -/
structure Tot where
  S : ℝ
  G : ℝ
  H : ℝ
  V : ℝ

/-- Temperature at which interval `j` starts to count. -/
noncomputable def CpTable.start (t : CpTable) (Tr : ℝ) (j : ℕ) : ℝ := if j = 0 then Tr else t.b j

/-- The totals at temperature `T` of interval `j`, given those at its start. -/
noncomputable def CpTable.run (t : CpTable) (Tr : ℝ) (j : ℕ) (T : ℝ) (x : Tot) : Tot where
  S := x.S + (empS (t.coefs j) (TS.temperature T) (t.start Tr j)).val
  G := x.G - x.S * (T - t.start Tr j) - (empG (t.coefs j) (TS.temperature T) (t.start Tr j)).val
  H := x.H + (empH (t.coefs j) (TS.temperature T) (t.start Tr j)).val
  V := x.V

/-- The totals at the start of interval `j`, transition included. -/
noncomputable def CpTable.entry (t : CpTable) (Tr : ℝ) (x0 : Tot) : ℕ → Tot
  | 0 => x0
  | j + 1 =>
    let x := t.run Tr j (t.b (j + 1)) (t.entry Tr x0 j)
    { x with S := x.S + t.dS j, H := x.H + t.dH j, V := x.V + t.dV j }

/-- The totals in a state of the loop. -/
def EmpSt.tot (st : EmpSt) : Tot := ⟨st.S.val, st.G.val, st.H.val, st.V.val⟩

lemma step_tbl (t : CpTable) (L : ℕ) (hL : ∀ j < t.n, (t.c j).length = L) (Tr : ℝ) (ref pt : TPS) (T : ℝ) (k j : ℕ) (hk : k < t.n) (hj : j ≤ k)
    (st : EmpSt) (hft : st.ft = j - 1) (hac : ∀ i, L ≤ i → st.ac i = 0) :
    ∃ st', empStep (t.data Tr ref pt) T k j st = .ok st' ∧ st'.ft = j ∧ (∀ i, L ≤ i → st'.ac i = 0) ∧
      st'.tot = t.run Tr j (if j = k then T else t.b (j + 1))
        (if j = 0 then st.tot else { st.tot with S := st.tot.S + t.dS (j - 1), H := st.tot.H + t.dH (j - 1), V := st.tot.V + t.dV (j - 1) }) := by
  have hjn : j < t.n := by omega
  have hc0 : cell (t.data Tr ref pt).intervals j 0 = .ok (t.b j) := by simp [cell, CpTable.data, hjn]
  have hc1 : cell (t.data Tr ref pt).intervals j 1 = .ok (t.b (j + 1)) := by simp [cell, CpTable.data, hjn]
  have hcoef : (t.data Tr ref pt).coef[j]? = some (t.c j) := by simp [CpTable.data, hjn]
  have e1 : (if j = k then (Res.ok T : Res ℝ) else cell (t.data Tr ref pt).intervals j 1) = .ok (if j = k then T else t.b (j + 1)) := by
    by_cases h : j = k
    · simp [h]
    · simp [h, hc1]
  have e2 : (if j = 0 then (Res.ok (t.data Tr ref pt).Tr : Res ℝ) else cell (t.data Tr ref pt).intervals j 0) = .ok (t.start Tr j) := by
    by_cases h : j = 0
    · simp [h, CpTable.start, CpTable.data]
    · simp [h, hc0, CpTable.start]
  have hcong : ∀ st' : EmpSt, (∀ i, L ≤ i → st'.ac i = 0) → ∀ i < 10, loadAC st'.ac (t.c j) i = t.coefs j i := by
    intro st' h' i hi
    simp only [loadAC, hL j hjn, CpTable.coefs]
    by_cases hiL : i < L
    · rw [if_pos ⟨hiL, by omega⟩]
    · rw [if_neg (by omega), h' i (by omega), List.getD_eq_getElem?_getD, List.getElem?_eq_none (by rw [hL j hjn]; omega)]
      rfl
  have hrest : ∀ st' : EmpSt, (∀ i, L ≤ i → st'.ac i = 0) → ∀ i, L ≤ i → loadAC st'.ac (t.c j) i = 0 := by
    intro st' h' i hi
    simp only [loadAC, hL j hjn]
    rw [if_neg (by omega), h' i hi]
  have key : ∀ st' : EmpSt, empTrans (t.data Tr ref pt) j (t.start Tr j) st = .ok st' → st'.ft = j → (∀ i, L ≤ i → st'.ac i = 0) →
      ∃ st'', empStep (t.data Tr ref pt) T k j st = .ok st'' ∧ st''.ft = j ∧ (∀ i, L ≤ i → st''.ac i = 0) ∧
        st''.tot = t.run Tr j (if j = k then T else t.b (j + 1)) st'.tot := by
    intro st' h1 h2 h3
    simp only [empStep, e1, e2, Res.ok_bind, h1, hcoef]
    refine ⟨_, rfl, h2, hrest st' h3, ?_⟩
    obtain ⟨g1, g2, g3, -⟩ := emp_congr _ _ (hcong st' h3) (TS.temperature (if j = k then T else t.b (j + 1))) (t.start Tr j)
    simp only [EmpSt.tot, CpTable.run, TS.val_addAssign, TS.val_subAssign, g1, g2, g3, TS.op_val_mul, TS.op_val_subR, TS.val_temperature]
  by_cases h0 : j = 0
  · rw [if_pos h0]
    refine key st (by simp [empTrans, h0]) (by omega) hac
  · rw [if_neg h0]
    have hcell : cell (t.data Tr ref pt).trans st.ft 0 = .ok (t.b j) := by
      have hlt : j - 1 < t.n - 1 := by omega
      simp [cell, CpTable.data, hft, hlt, Nat.sub_add_cancel (Nat.pos_of_ne_zero h0)]
    have hrow : (t.data Tr ref pt).trans.getD st.ft [] = [t.b j, t.dS (j - 1), t.dH (j - 1), t.dV (j - 1)] := by
      have hlt : j - 1 < t.n - 1 := by omega
      simp [CpTable.data, hft, hlt, Nat.sub_add_cancel (Nat.pos_of_ne_zero h0)]
    have hlen : (t.data Tr ref pt).trans.length ≠ 0 := by simp [CpTable.data]; omega
    have hst : t.start Tr j = t.b j := by simp [CpTable.start, h0]
    refine key { st with S := TS.addAssignD st.S (t.dS (j - 1)), H := TS.addAssignD st.H (t.dH (j - 1)), V := TS.addAssignD st.V (t.dV (j - 1)),
                         ft := st.ft + 1 } ?_ (by simp only; omega) hac
    simp only [empTrans, h0, if_false, hlen, hcell, Res.ok_bind, hst, le_refl, if_true, hrow]
    simp

lemma loop_tbl (t : CpTable) (L : ℕ) (hL : ∀ j < t.n, (t.c j).length = L) (Tr : ℝ) (ref pt : TPS) (T : ℝ) (k : ℕ) (hk : k < t.n)
    (st0 : EmpSt) (hft : st0.ft = 0) (hac : ∀ i, L ≤ i → st0.ac i = 0) (m : ℕ) (hm : m ≤ k) :
    ∃ st, empLoop (t.data Tr ref pt) T k st0 (m + 1) = .ok st ∧ st.ft = m ∧ (∀ i, L ≤ i → st.ac i = 0) ∧
      st.tot = t.run Tr m (if m = k then T else t.b (m + 1)) (t.entry Tr st0.tot m) := by
  induction m with
  | zero =>
    obtain ⟨st', h1, h2, h3, h4⟩ := step_tbl t L hL Tr ref pt T k 0 hk hm st0 hft hac
    exact ⟨st', by rw [empLoop, empLoop, Res.ok_bind, h1], h2, h3, by rw [h4]; simp [CpTable.entry]⟩
  | succ m ih =>
    obtain ⟨st, h1, h2, h3, h4⟩ := ih (by omega)
    obtain ⟨st', g1, g2, g3, g4⟩ := step_tbl t L hL Tr ref pt T k (m + 1) hk hm st (by omega) h3
    refine ⟨st', by rw [empLoop, h1, Res.ok_bind, g1], g2, g3, ?_⟩
    rw [g4, if_neg (Nat.succ_ne_zero m)]
    rw [if_neg (by omega : m ≠ k)] at h4
    simp only [h4, CpTable.entry, Nat.add_sub_cancel]

/-- The reference state as totals. -/
def refTot (ref : TPS) : Tot := ⟨ref.S.val, ref.G.val, ref.H.val, 0⟩

lemma emp_tbl (t : CpTable) (ht : t.Ok) (Tr : ℝ) (ref pt : TPS) (T : ℝ) (k : ℕ) (h : t.At T k) :
    ∃ r, empCpIntegration (t.data Tr ref pt) T = .ok r ∧ r.Cp.val = cpPoly (t.coefs k) T - t.coefs k 9 * √T + t.coefs k 9 ∧
      (⟨r.S.val, r.G.val, r.H.val, r.V.val⟩ : Tot) = t.run Tr k T (t.entry Tr (refTot ref) k) := by
  obtain ⟨L, hL⟩ := ht.len
  have hk := h.1
  have hs : selectInterval T (t.data Tr ref pt).intervals = .ok k := select_tbl t ht T k h
  have hcoef : (t.data Tr ref pt).coef[k]? = some (t.c k) := by simp [CpTable.data, hk]
  have hlen : (t.data Tr ref pt).coef.length ≠ 0 := by
    have := ht.pos
    simp [CpTable.data]; omega
  have hac : ∀ i, L ≤ i → loadAC (fun _ => 0) (t.c k) i = 0 := by
    intro i hi
    simp only [loadAC, hL k hk]
    rw [if_neg (by omega)]
  obtain ⟨st, h1, -, -, h4⟩ := loop_tbl t L hL Tr ref pt T k hk
    ⟨loadAC (fun _ => 0) (t.c k), 0, (t.data Tr ref pt).ref.S, (t.data Tr ref pt).ref.G, (t.data Tr ref pt).ref.H, TS.assign TS.default 0⟩ rfl hac k le_rfl
  simp only [empCpIntegration, hlen, if_false, hs, Res.ok_bind, hcoef, h1]
  refine ⟨_, rfl, ?_, ?_⟩
  · have : ∀ i < 10, loadAC (fun _ => 0) (t.c k) i = t.coefs k i := by
      intro i hi
      simp only [loadAC, hL k hk, CpTable.coefs]
      by_cases hiL : i < L
      · rw [if_pos ⟨hiL, by omega⟩]
      · rw [if_neg (by omega), List.getD_eq_getElem?_getD, List.getElem?_eq_none (by rw [hL k hk]; omega)]
        rfl
    simp only
    rw [(emp_congr _ _ this (TS.temperature T) 1).2.2.2, empCp_val]
  · rw [if_pos rfl] at h4
    simp only [EmpSt.tot] at h4
    exact h4

/-! ### C29 -/

/-- The properties returned, default ones when there are none. -/
noncomputable def okOr (r : Res TPS) : TPS := match r with
  | .ok x => x
  | _ => TPS.default

/-- `T` is properly inside the range of interval `k`. -/
def CpTable.Inside (t : CpTable) (T : ℝ) (k : ℕ) : Prop :=
  k < t.n ∧ ((t.b k < T ∧ T < t.b (k + 1)) ∨ (k = 0 ∧ T < t.b 0) ∨ (k + 1 = t.n ∧ t.b t.n < T))

lemma inside_ev (t : CpTable) (T : ℝ) (k : ℕ) (h : t.Inside T k) : ∀ᶠ x in nhds T, t.At x k := by
  obtain ⟨hk, h | h | h⟩ := h
  · filter_upwards [Ioo_mem_nhds h.1 h.2] with x hx using ⟨hk, Or.inl ⟨hx.1.le, hx.2⟩⟩
  · filter_upwards [gt_mem_nhds h.2] with x hx using ⟨hk, Or.inr (Or.inl ⟨h.1, hx⟩)⟩
  · filter_upwards [lt_mem_nhds h.2] with x hx using ⟨hk, Or.inr (Or.inr ⟨h.1, hx⟩)⟩

lemma CpTable.Ok.bpos {t : CpTable} (ht : t.Ok) (j : ℕ) : 0 < t.b j := lt_of_lt_of_le ht.low (ht.mono.monotone (Nat.zero_le j))

lemma start_pos {t : CpTable} (ht : t.Ok) {Tr : ℝ} (hTr : 0 < Tr) (j : ℕ) : 0 < t.start Tr j := by
  unfold CpTable.start
  split
  · exact hTr
  · exact ht.bpos j

lemma okOr_vals (t : CpTable) (ht : t.Ok) (Tr : ℝ) (ref pt : TPS) (x : ℝ) (k : ℕ) (h : t.At x k) :
    let f := fun x => okOr (empCpIntegration (t.data Tr ref pt) x)
    let e := t.entry Tr (refTot ref) k
    empCpIntegration (t.data Tr ref pt) x = .ok (f x) ∧ (f x).Cp.val = cpPoly (t.coefs k) x - t.coefs k 9 * √x + t.coefs k 9 ∧
    (f x).S.val = e.S + (empS (t.coefs k) (TS.temperature x) (t.start Tr k)).val ∧
    (f x).G.val = e.G - e.S * (x - t.start Tr k) - (empG (t.coefs k) (TS.temperature x) (t.start Tr k)).val ∧
    (f x).H.val = e.H + (empH (t.coefs k) (TS.temperature x) (t.start Tr k)).val ∧ (f x).V.val = e.V := by
  obtain ⟨r, h1, h2, h3⟩ := emp_tbl t ht Tr ref pt x k h
  simp only [h1, okOr, h2, true_and]
  simp only [CpTable.run, Tot.mk.injEq] at h3
  exact h3

/-- **C29, all ten coefficients in the integrals.**  In every interval the slopes of H and S are C(T) and C(T)/T for the ten-coefficient
heat capacity C of that interval, and the slope of G is -S; at T = Tr in the first interval G, S, H are the reference values. -/
theorem C29_integrals (t : CpTable) (ht : t.Ok) (Tr : ℝ) (hTr : 0 < Tr) (ref pt : TPS) (T : ℝ) (hT : 0 < T) (k : ℕ) (h : t.Inside T k) :
    let f := fun x => okOr (empCpIntegration (t.data Tr ref pt) x)
    (∀ᶠ x in nhds T, empCpIntegration (t.data Tr ref pt) x = .ok (f x)) ∧
    HasDerivAt (fun x => (f x).H.val) (cpPoly (t.coefs k) T) T ∧
    HasDerivAt (fun x => (f x).S.val) (cpPoly (t.coefs k) T / T) T ∧
    HasDerivAt (fun x => (f x).G.val) (-(f T).S.val) T ∧
    (k = 0 → T = Tr → (f T).G.val = ref.G.val ∧ (f T).S.val = ref.S.val ∧ (f T).H.val = ref.H.val) := by
  intro f
  have hev := inside_ev t T k h
  have hv := fun x (hx : t.At x k) => okOr_vals t ht Tr ref pt x k hx
  obtain ⟨d1, d2, d3⟩ := emp_deriv (t.coefs k) T (t.start Tr k) hT (start_pos ht hTr k)
  refine ⟨hev.mono fun x hx => (hv x hx).1, ?_, ?_, ?_, ?_⟩
  · exact (d1.const_add _).congr_of_eventuallyEq (hev.mono fun x hx => (hv x hx).2.2.2.2.1)
  · exact (d2.const_add _).congr_of_eventuallyEq (hev.mono fun x hx => (hv x hx).2.2.1)
  · have := ((((hasDerivAt_id' T).sub_const (t.start Tr k)).const_mul (t.entry Tr (refTot ref) k).S).const_sub (t.entry Tr (refTot ref) k).G).sub d3
    refine (this.congr_deriv ?_).congr_of_eventuallyEq (hev.mono fun x hx => (hv x hx).2.2.2.1)
    simp only [f, (hv T hev.self_of_nhds).2.2.1]
    ring
  · rintro rfl rfl
    obtain ⟨-, -, g1, g2, g3, -⟩ := hv T hev.self_of_nhds
    have hst : t.start T 0 = T := by simp [CpTable.start]
    obtain ⟨e1, e2, e3⟩ := emp_self (t.coefs 0) T hT
    simp only [f, g1, g2, g3, hst, e1, e2, e3, CpTable.entry, refTot]
    simp

/-- **C29, the part that holds of the reported heat capacity.**  When the tenth coefficient of the interval is zero the reported Cp is the
integrand: dH/dT = Cp, dS/dT = Cp/T, dG/dT = -S.  Missing: a nonzero tenth coefficient. -/
theorem C29_reported_partial (t : CpTable) (ht : t.Ok) (Tr : ℝ) (hTr : 0 < Tr) (ref pt : TPS) (T : ℝ) (hT : 0 < T) (k : ℕ) (h : t.Inside T k)
    (h9 : t.coefs k 9 = 0) :
    let f := fun x => okOr (empCpIntegration (t.data Tr ref pt) x)
    HasDerivAt (fun x => (f x).H.val) ((f T).Cp.val) T ∧ HasDerivAt (fun x => (f x).S.val) ((f T).Cp.val / T) T ∧
    HasDerivAt (fun x => (f x).G.val) (-(f T).S.val) T := by
  intro f
  obtain ⟨-, h1, h2, h3, -⟩ := C29_integrals t ht Tr hTr ref pt T hT k h
  have hc := (okOr_vals t ht Tr ref pt T k (inside_ev t T k h).self_of_nhds).2.1
  rw [h9, zero_mul, sub_zero, add_zero] at hc
  simp only [f]
  rw [hc]
  exact ⟨h1, h2, h3⟩

/-- Two intervals of a Cp = a + b T + c / T² mineral. -/
noncomputable def twoIntervals : CpTable :=
  ⟨2, fun j => 200 + 600 * j, fun j => if j = 0 then [40, 0.04, -1e6] else [60, 0.01, 0], fun _ => 0.5, fun _ => 400, fun _ => 0.01⟩

lemma twoIntervals_ok : twoIntervals.Ok := by
  refine ⟨by decide, by norm_num [twoIntervals], ?_, 3, ?_⟩
  · refine strictMono_nat_of_lt_succ fun j => ?_
    simp only [twoIntervals]
    push_cast
    linarith
  · intro j hj
    simp only [twoIntervals]
    split <;> rfl

/-- Temperatures inside both intervals. -/
example : twoIntervals.Ok ∧ twoIntervals.Inside 300 0 ∧ twoIntervals.Inside 1000 1 ∧ twoIntervals.coefs 1 9 = 0 := by
  refine ⟨twoIntervals_ok, ⟨by decide, Or.inl ?_⟩, ⟨by decide, Or.inl ?_⟩, ?_⟩
  · norm_num [twoIntervals]
  · norm_num [twoIntervals]
  · simp [twoIntervals, CpTable.coefs]

/-- **C29 refuted.**  `pow(TK, (1 / 2))` is an integer division: the tenth term of the reported Cp is the bare coefficient while the
integrals use its product with the square root of T.  With a nonzero tenth coefficient the reported Cp is the slope of H at no temperature
but 1 K. -/
theorem C29_refuted (t : CpTable) (ht : t.Ok) (Tr : ℝ) (hTr : 0 < Tr) (ref pt : TPS) (T : ℝ) (hT : 0 < T) (hT1 : T ≠ 1) (k : ℕ) (h : t.Inside T k)
    (h9 : t.coefs k 9 ≠ 0) :
    let f := fun x => okOr (empCpIntegration (t.data Tr ref pt) x)
    ¬ HasDerivAt (fun x => (f x).H.val) ((f T).Cp.val) T := by
  intro f hd
  obtain ⟨-, h1, -⟩ := C29_integrals t ht Tr hTr ref pt T hT k h
  have hc := (okOr_vals t ht Tr ref pt T k (inside_ev t T k h).self_of_nhds).2.1
  have e := hd.unique h1
  simp only [f] at e
  rw [hc] at e
  have : t.coefs k 9 * (1 - √T) = 0 := by linarith
  rcases mul_eq_zero.1 this with h0 | h0
  · exact h9 h0
  · have : √T = 1 := by linarith
    rw [Real.sqrt_eq_one] at this
    exact hT1 this

/-- A record with a tenth coefficient. -/
example : ∃ t : CpTable, t.Ok ∧ t.Inside 300 0 ∧ t.coefs 0 9 ≠ 0 := by
  refine ⟨⟨1, fun j => 200 + 600 * j, fun _ => [1, 0, 0, 0, 0, 0, 0, 0, 0, 2], fun _ => 0, fun _ => 0, fun _ => 0⟩, ⟨by decide, by norm_num, ?_, 10, ?_⟩,
    ⟨by decide, Or.inl (by norm_num)⟩, by simp [CpTable.coefs]⟩
  · refine strictMono_nat_of_lt_succ fun j => ?_
    push_cast
    linarith
  · intro j _
    rfl

/-! ### C30 -/

/-- **C30.**  At the bound between two intervals, for any number of intervals: G is continuous, and S, H and V jump by the recorded amounts. -/
theorem C30_transitions (t : CpTable) (ht : t.Ok) (Tr : ℝ) (hTr : 0 < Tr) (ref pt : TPS) (k : ℕ) (hk : k + 1 < t.n) :
    let f := fun x => okOr (empCpIntegration (t.data Tr ref pt) x)
    let b := t.b (k + 1)
    empCpIntegration (t.data Tr ref pt) b = .ok (f b) ∧
    ContinuousAt (fun x => (f x).G.val) b ∧
    Filter.Tendsto (fun x => (f x).S.val) (nhdsWithin b (Set.Iio b)) (nhds ((f b).S.val - t.dS k)) ∧
    Filter.Tendsto (fun x => (f x).H.val) (nhdsWithin b (Set.Iio b)) (nhds ((f b).H.val - t.dH k)) ∧
    Filter.Tendsto (fun x => (f x).V.val) (nhdsWithin b (Set.Iio b)) (nhds ((f b).V.val - t.dV k)) ∧
    ContinuousWithinAt (fun x => (f x).S.val) (Set.Ici b) b ∧ ContinuousWithinAt (fun x => (f x).H.val) (Set.Ici b) b ∧
    ContinuousWithinAt (fun x => (f x).V.val) (Set.Ici b) b := by
  intro f b
  have hb : 0 < b := ht.bpos _
  have hl : ∀ᶠ x in nhdsWithin b (Set.Iio b), t.At x k := by
    filter_upwards [Ioo_mem_nhdsLT (ht.mono (Nat.lt_succ_self k) : t.b k < b)] with x hx using ⟨by omega, Or.inl ⟨hx.1.le, hx.2⟩⟩
  have hr : ∀ᶠ x in nhdsWithin b (Set.Ici b), t.At x (k + 1) := by
    filter_upwards [Ico_mem_nhdsGE (ht.mono (Nat.lt_succ_self (k + 1)) : b < t.b (k + 2))] with x hx using ⟨hk, Or.inl ⟨hx.1, hx.2⟩⟩
  have hbk : t.At b (k + 1) := ⟨hk, Or.inl ⟨le_rfl, ht.mono (Nat.lt_succ_self (k + 1))⟩⟩
  have hv := fun x j (hx : t.At x j) => okOr_vals t ht Tr ref pt x j hx
  obtain ⟨v0, -, vS, vG, vH, vV⟩ := hv b (k + 1) hbk
  have hst : t.start Tr (k + 1) = b := by simp [CpTable.start, b]
  obtain ⟨s1, s2, s3⟩ := emp_self (t.coefs (k + 1)) b hb
  rw [hst] at vS vG vH
  rw [s1] at vH
  rw [s2] at vS
  rw [s3] at vG
  obtain ⟨d1, d2, d3⟩ := emp_deriv (t.coefs k) b (t.start Tr k) hb (start_pos ht hTr k)
  obtain ⟨g1, g2, g3⟩ := emp_deriv (t.coefs (k + 1)) b (t.start Tr (k + 1)) hb (start_pos ht hTr (k + 1))
  have cl := fun (g : ℝ → ℝ) (d : ℝ) (hg : HasDerivAt g d b) => hg.continuousAt.tendsto.mono_left (nhdsWithin_le_nhds (s := Set.Iio b))
  have cr := fun (g : ℝ → ℝ) (d : ℝ) (hg : HasDerivAt g d b) => hg.continuousAt.continuousWithinAt (s := Set.Ici b)
  have hGl : Filter.Tendsto (fun x => (f x).G.val) (nhdsWithin b (Set.Iio b)) (nhds (f b).G.val) := by
    have h0 := ((((hasDerivAt_id' b).sub_const (t.start Tr k)).const_mul (t.entry Tr (refTot ref) k).S).const_sub (t.entry Tr (refTot ref) k).G).sub d3
    have := cl _ _ h0
    refine (this.congr' (hl.mono fun x hx => (hv x k hx).2.2.2.1.symm)).trans ?_
    refine le_of_eq (congrArg nhds ?_)
    simp only [f, vG, CpTable.entry, CpTable.run, Pi.sub_apply]
    simp [b]
  have hGr : ContinuousWithinAt (fun x => (f x).G.val) (Set.Ici b) b := by
    have h0 := ((((hasDerivAt_id' b).sub_const (t.start Tr (k + 1))).const_mul (t.entry Tr (refTot ref) (k + 1)).S).const_sub
      (t.entry Tr (refTot ref) (k + 1)).G).sub g3
    exact (cr _ _ h0).congr_of_eventuallyEq (hr.mono fun x hx => (hv x (k + 1) hx).2.2.2.1) (hv b (k + 1) hbk).2.2.2.1
  refine ⟨v0, ?_, ?_, ?_, ?_, ?_, ?_, ?_⟩
  · rw [continuousAt_iff_continuous_left'_right']
    exact ⟨hGl, hGr.mono Set.Ioi_subset_Ici_self⟩
  · have := cl _ _ (d2.const_add (t.entry Tr (refTot ref) k).S)
    refine (this.congr' (hl.mono fun x hx => (hv x k hx).2.2.1.symm)).trans (le_of_eq (congrArg nhds ?_))
    simp only [f, vS, CpTable.entry, CpTable.run]
    simp [b]
  · have := cl _ _ (d1.const_add (t.entry Tr (refTot ref) k).H)
    refine (this.congr' (hl.mono fun x hx => (hv x k hx).2.2.2.2.1.symm)).trans (le_of_eq (congrArg nhds ?_))
    simp only [f, vH, CpTable.entry, CpTable.run]
    simp [b]
  · refine (tendsto_const_nhds (x := (t.entry Tr (refTot ref) k).V)).congr' (hl.mono fun x hx => (hv x k hx).2.2.2.2.2.symm) |>.trans
      (le_of_eq (congrArg nhds ?_))
    simp only [f, vV, CpTable.entry, CpTable.run]
    simp
  · exact (cr _ _ (g2.const_add (t.entry Tr (refTot ref) (k + 1)).S)).congr_of_eventuallyEq (hr.mono fun x hx => (hv x (k + 1) hx).2.2.1)
      (hv b (k + 1) hbk).2.2.1
  · exact (cr _ _ (g1.const_add (t.entry Tr (refTot ref) (k + 1)).H)).congr_of_eventuallyEq (hr.mono fun x hx => (hv x (k + 1) hx).2.2.2.2.1)
      (hv b (k + 1) hbk).2.2.2.2.1
  · exact (continuousWithinAt_const (b := (t.entry Tr (refTot ref) (k + 1)).V)).congr_of_eventuallyEq
      (hr.mono fun x hx => (hv x (k + 1) hx).2.2.2.2.2) (hv b (k + 1) hbk).2.2.2.2.2

/-- The bound at 800 K of the two-interval mineral, with a transition entropy, enthalpy and volume. -/
example : twoIntervals.Ok ∧ 0 + 1 < twoIntervals.n ∧ twoIntervals.dS 0 ≠ 0 ∧ twoIntervals.dH 0 ≠ 0 :=
  ⟨twoIntervals_ok, by decide, by norm_num [twoIntervals], by norm_num [twoIntervals]⟩

/-! ### C31 -/

/-- **C31, the part that holds.**  With adjoining intervals and complete tables every temperature but the upper end of the last interval is
answered, with the interval it lies in, or the first or last one.  Missing: that temperature, gaps between intervals, incomplete tables. -/
theorem C31_partial (t : CpTable) (ht : t.Ok) (Tr : ℝ) (ref pt : TPS) (T : ℝ) (hT : T ≠ t.b t.n) :
    ∃ k, t.At T k ∧ selectInterval T (t.data Tr ref pt).intervals = .ok k ∧ ∃ r, empCpIntegration (t.data Tr ref pt) T = .ok r := by
  have hn := ht.pos
  have : ∃ k, t.At T k := by
    rcases lt_or_ge T (t.b 0) with h | h
    · exact ⟨0, hn, Or.inr (Or.inl ⟨rfl, h⟩)⟩
    rcases lt_or_ge (t.b t.n) T with h' | h'
    · exact ⟨t.n - 1, by omega, Or.inr (Or.inr ⟨by omega, h'⟩)⟩
    have hlt : T < t.b t.n := lt_of_le_of_ne h' hT
    have hex : ∃ j, T < t.b j := ⟨_, hlt⟩
    classical
    have h1 := Nat.find_spec hex
    have h2 : Nat.find hex ≤ t.n := Nat.find_min' hex hlt
    have h3 : Nat.find hex ≠ 0 := by
      intro h0
      rw [h0] at h1
      linarith
    have h4 := Nat.find_min hex (m := Nat.find hex - 1) (by omega)
    refine ⟨Nat.find hex - 1, by omega, Or.inl ⟨not_lt.1 h4, ?_⟩⟩
    rw [Nat.sub_add_cancel (Nat.pos_of_ne_zero h3)]
    exact h1
  obtain ⟨k, hk⟩ := this
  obtain ⟨r, hr, -⟩ := emp_tbl t ht Tr ref pt T k hk
  exact ⟨k, hk, select_tbl t ht T k hk, r, hr⟩

/-- The two-interval mineral at 1000 K. -/
example : twoIntervals.Ok ∧ (1000 : ℝ) ≠ twoIntervals.b twoIntervals.n := ⟨twoIntervals_ok, by norm_num [twoIntervals]⟩

/-- **C31 refuted.**  The interval index stays -1, and the coefficient table is read at -1: at exactly the upper end of the last interval of any
record; between two intervals that leave a gap; for any record with coefficients and no interval.  A record with fewer transitions than inner
bounds is read past the end of the transition table. -/
theorem C31_refuted :
    (∀ (t : CpTable), t.Ok → ∀ (Tr : ℝ) (ref pt : TPS), empCpIntegration (t.data Tr ref pt) (t.b t.n) = .ub) ∧
    (∀ (a b c e T Tr : ℝ) (p q : List ℝ) (ref pt : TPS) (tr : List (List ℝ)), a < b → b ≤ T → T < c → c < e →
      empCpIntegration ⟨[p, q], [[a, b], [c, e]], tr, Tr, ref, pt⟩ T = .ub) ∧
    (∀ (p : List ℝ) (q : List (List ℝ)) (T Tr : ℝ) (ref pt : TPS) (tr : List (List ℝ)),
      empCpIntegration ⟨p :: q, [], tr, Tr, ref, pt⟩ T = .ub) ∧
    (∃ (d : CpData) (T : ℝ), d.coef.length = 3 ∧ d.intervals.length = 3 ∧ d.trans.length = 1 ∧ empCpIntegration d T = .ub) := by
  refine ⟨?_, ?_, ?_, ?_⟩
  · intro t ht Tr ref pt
    have hn := ht.pos
    have hlast : ((List.range t.n).map fun j => [t.b j, t.b (j + 1)]).getLast? = some [t.b (t.n - 1), t.b t.n] := by
      obtain ⟨m, hm⟩ : ∃ m, t.n = m + 1 := ⟨t.n - 1, by omega⟩
      rw [hm, List.range_succ, List.map_append]
      simp
    have hhead : ((List.range t.n).map fun j => [t.b j, t.b (j + 1)]).head? = some [t.b 0, t.b 1] := by
      obtain ⟨m, hm⟩ : ∃ m, t.n = m + 1 := ⟨t.n - 1, by omega⟩
      rw [hm, List.range_succ_eq_map]
      simp
    have hs := search_none t.b (t.b t.n) t.n 0 (by
      rintro j - hj ⟨-, h2⟩
      have : t.b (j + 1) ≤ t.b t.n := ht.mono.monotone (by omega)
      linarith)
    rw [← List.range_eq_range'] at hs
    have hlen : (t.data Tr ref pt).coef.length ≠ 0 := by
      simp [CpTable.data]; omega
    have hsel : selectInterval (t.b t.n) (t.data Tr ref pt).intervals = .ub := by
      simp only [CpTable.data, selectInterval, hs, Res.ok_bind, hhead, hlast, gt_iff_lt, lt_irrefl, if_false]
      rw [if_neg]
      have := ht.mono hn
      linarith
    simp only [empCpIntegration, hlen, if_false, hsel, Res.ub_bind]
  · intro a b c e T Tr p q ref pt tr h1 h2 h3 h4
    have hs : selectInterval T [[a, b], [c, e]] = .ub := by
      have g1 : ¬ (a ≤ T ∧ b > T) := fun h => by linarith [h.2]
      have g2 : ¬ (c ≤ T ∧ e > T) := fun h => by linarith [h.1]
      have g3 : ¬ T > e := by linarith
      have g4 : ¬ T ≤ a := by linarith
      simp only [selectInterval, searchGo, if_neg g1, if_neg g2, Res.ok_bind, List.head?_cons, List.getLast?_cons_cons, List.getLast?_singleton,
        if_neg g3, if_neg g4]
    simp only [empCpIntegration, hs, Res.ub_bind]
    simp
  · intro p q T Tr ref pt tr
    simp [empCpIntegration, selectInterval, searchGo]
  · refine ⟨⟨[[1], [1], [1]], [[200, 300], [300, 400], [400, 500]], [[300, 0, 0, 0]], 298, TPS.default, TPS.default⟩, 450, rfl, rfl, rfl, ?_⟩
    have hs : selectInterval 450 [[200, 300], [300, 400], [400, 500]] = .ok 2 := by
      norm_num [selectInterval, searchGo]
    simp only [empCpIntegration, hs, Res.ok_bind]
    simp [empLoop, empStep, empTrans, cell]

/-- Such records exist: the two-interval mineral, at 1400 K. -/
example : twoIntervals.Ok ∧ twoIntervals.b twoIntervals.n = 1400 := ⟨twoIntervals_ok, by norm_num [twoIntervals]⟩

/-! ### C32 -/

/-- **C32, the part that holds.**  In records whose coefficient lists have one length, two records that agree on the coefficients of interval `k`
(and on the bounds) get the same contributions from it: the same changes of S and H, and of G beyond that due to the entropy reached at
the first of the two temperatures.  Missing: lists of different length. -/
theorem C32_partial (t t' : CpTable) (ht : t.Ok) (ht' : t'.Ok) (hb : t.b = t'.b) (hn : t.n = t'.n) (Tr : ℝ) (ref pt ref' pt' : TPS)
    (k : ℕ) (hc : t.c k = t'.c k) (T T' : ℝ) (h : t.At T k) (h' : t.At T' k) :
    let f := fun x => okOr (empCpIntegration (t.data Tr ref pt) x)
    let f' := fun x => okOr (empCpIntegration (t'.data Tr ref' pt') x)
    (f T').S.val - (f T).S.val = (f' T').S.val - (f' T).S.val ∧
    (f T').H.val - (f T).H.val = (f' T').H.val - (f' T).H.val ∧
    (f T').Cp.val = (f' T').Cp.val ∧
    (f T').G.val - (f T).G.val + (f T).S.val * (T' - T) = (f' T').G.val - (f' T).G.val + (f' T).S.val * (T' - T) := by
  intro f f'
  have hco : t.coefs k = t'.coefs k := by unfold CpTable.coefs; rw [hc]
  have hst : t.start Tr k = t'.start Tr k := by unfold CpTable.start; rw [hb]
  have g : t'.At T k := by simpa only [CpTable.At, ← hb, ← hn] using h
  have g' : t'.At T' k := by simpa only [CpTable.At, ← hb, ← hn] using h'
  obtain ⟨-, -, a1, a2, a3, -⟩ := okOr_vals t ht Tr ref pt T k h
  obtain ⟨-, aC, b1, b2, b3, -⟩ := okOr_vals t ht Tr ref pt T' k h'
  obtain ⟨-, -, c1, c2, c3, -⟩ := okOr_vals t' ht' Tr ref' pt' T k g
  obtain ⟨-, cC, d1, d2, d3, -⟩ := okOr_vals t' ht' Tr ref' pt' T' k g'
  refine ⟨?_, ?_, ?_, ?_⟩
  · simp only [f, f', a1, b1, c1, d1, hco, hst]; ring
  · simp only [f, f', a3, b3, c3, d3, hco, hst]; ring
  · simp only [f, f', aC, cC, hco]
  · simp only [f, f', a1, c1, a2, b2, c2, d2, hco, hst]; ring

/-- The two-interval mineral, between 900 K and 1000 K. -/
example : twoIntervals.Ok ∧ twoIntervals.At 900 1 ∧ twoIntervals.At 1000 1 := by
  refine ⟨twoIntervals_ok, ⟨by decide, Or.inl ?_⟩, ⟨by decide, Or.inl ?_⟩⟩ <;> norm_num [twoIntervals]

/-- **C32 refuted.**  Lists of different length: the coefficient array is filled from the interval of T first and not cleared between
intervals.  Of two records that differ only in the coefficients of the second interval, at the lower end of that interval (where it has
contributed nothing yet) the enthalpies differ. -/
theorem C32_refuted :
    let d := fun c : List ℝ => (⟨[[0], c], [[300, 400], [400, 500]], [[400, 0, 0, 0]], 300, TPS.default, TPS.default⟩ : CpData)
    ∃ r r', empCpIntegration (d [0]) 400 = .ok r ∧ empCpIntegration (d [0, 1]) 400 = .ok r' ∧ r.H.val = 0 ∧ r'.H.val = 35000 := by
  intro d
  have hs : selectInterval 400 [[300, 400], [400, 500]] = .ok 1 := by norm_num [selectInterval, searchGo]
  have hrun : ∀ c : List ℝ, ∃ r, empCpIntegration (d c) 400 = .ok r ∧
      r.H.val = (empH (loadAC (loadAC (fun _ => 0) c) [0]) (TS.temperature 400) 300).val := by
    intro c
    have hcell : cell (d c).trans 0 0 = .ok 400 := rfl
    have hi1 : cell (d c).intervals 0 1 = .ok 400 := rfl
    have hi0 : cell (d c).intervals 1 0 = .ok 400 := rfl
    have hcf : (d c).coef[1]? = some c := rfl
    have hc0 : (d c).coef[0]? = some [0] := rfl
    have hne : ¬ (d c).coef.length = 0 := by simp [d]
    have hiv : (d c).intervals = [[300, 400], [400, 500]] := rfl
    have htl : ¬ (d c).trans.length = 0 := by simp [d]
    simp only [empCpIntegration, hne, if_false, hiv, hs, Res.ok_bind, hcf]
    simp only [empLoop, Res.ok_bind, empStep, empTrans, hi1, hi0, hcell, htl, one_ne_zero, zero_ne_one, if_false, if_true, hc0, hcf, le_refl]
    refine ⟨_, rfl, ?_⟩
    have h0 := (emp_self (loadAC (loadAC (loadAC (fun _ => 0) c) [0]) c) 400 (by norm_num)).1
    simp only [TS.val_addAssign, h0, add_zero]
    simp [d, val_addAssignD, TPS.default]
  obtain ⟨r, h1, h2⟩ := hrun [0]
  obtain ⟨r', h3, h4⟩ := hrun [0, 1]
  refine ⟨r, r', h1, h3, ?_, ?_⟩
  · rw [h2, emp_val_H]; simp [loadAC]
  · rw [h4, emp_val_H]; norm_num [loadAC]

end ThermoFun
